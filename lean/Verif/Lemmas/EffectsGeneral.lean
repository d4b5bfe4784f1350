import Verif.Lemmas.Effects

/-! The complete courses of the handler of the General lingo. -/

namespace Ipod.Effects
open Go Spec.Effects

theorem done_wrote (req : Command) (t : TypeId) (v : t.Val) (k : UInt32) (hk : t.id = k) (es : List Event) (u : Unit) :
    Done (respond req t v) es u ↔ ∃ e, es = [wrote req k t v e] := by
  subst hk
  exact done_respond req t v es u

theorem done_originated (t : TypeId) (v : t.Val) (k : UInt32) (hk : t.id = k) (es : List Event) (u : Unit) :
    Done (send t v) es u ↔ ∃ n e, es = originated n k t v e := by
  subst hk
  exact done_send t v es u

theorem lowByte_eq (req : Command) : req.id.cmdID.toUInt8 = lowByte req := by
  apply UInt8.toNat_inj.1
  simp only [LingoCmdID.cmdID, lowByte, UInt16.toNat_toUInt8, UInt32.toNat_toUInt16, UInt32.toNat_and, UInt8.toNat_ofNat']
  rw [show (0xffff : UInt32).toNat = 2 ^ 16 - 1 from rfl, Nat.and_two_pow_sub_one_eq_mod]
  omega

theorem done_ackSuccess (req : Command) (es : List Event) (u : Unit) :
    Done (ackSuccess req) es u ↔ ∃ e, es = [acked req 0x00 e] := by
  unfold ackSuccess
  rw [lowByte_eq]
  exact done_wrote req _ _ 0x02 (by decide +kernel) es u

theorem done_ack (req : Command) (s : UInt8) (es : List Event) (u : Unit) :
    Done (ack req s) es u ↔ ∃ e, es = [acked req s e] := by
  unfold ack
  rw [lowByte_eq]
  exact done_wrote req _ _ 0x02 (by decide +kernel) es u

theorem done_ackPending (req : Command) (es : List Event) (u : Unit) :
    Done (ackPending req 300) es u ↔ ∃ e, es = [ackedPending req e] := by
  unfold ackPending
  rw [lowByte_eq]
  exact done_wrote req _ _ 0x02 (by decide +kernel) es u

theorem ackTokens_ids (ts : List FIDTokenValue) : (ackFIDTokenValues ts).map FIDTokenValueACK.id = ts.map FIDTokenValue.id := by
  simp only [ackFIDTokenValues, List.map_map]
  rfl

theorem ackTokens_acks (ts : List FIDTokenValue) : (ackFIDTokenValues ts).map FIDTokenValueACK.ack =
    ts.map (fun t => match t.token with
        | .accInfo kind _ => some [0x00, kind]
        | .ipodPref cls _ _ => some [0x00, cls]
        | .eaProtocol index _ => some [0x00, index]
        | .raw _ => none
        | .nil => none
        | _ => some [0x00]) := by
  simp only [ackFIDTokenValues, List.map_map]
  apply List.map_congr_left
  rintro ⟨id, t⟩ _
  cases t <;> rfl

theorem acks_ext : ∀ (a b : List FIDTokenValueACK), a.map FIDTokenValueACK.id = b.map FIDTokenValueACK.id →
    a.map FIDTokenValueACK.ack = b.map FIDTokenValueACK.ack → a = b
  | [], [], _, _ => rfl
  | [], _ :: _, h, _ => by simp at h
  | _ :: _, [], h, _ => by simp at h
  | ⟨i, x⟩ :: a, ⟨j, y⟩ :: b, h1, h2 => by
    simp only [List.map_cons, List.cons.injEq] at h1 h2
    rw [acks_ext a b h1.2 h2.2, h1.1, h2.1]

theorem extended_byte (m : UInt8) : boolToByte (m = uiModeExtended) = if m = 0x01 then 0x01 else 0x00 := by
  by_cases hm : m = 0x01 <;> simp [boolToByte, hm]

theorem model_bytes : stringToBytes (str "MC676") = [0x4D, 0x43, 0x36, 0x37, 0x36, 0x00] := by decide +kernel

theorem done_stored (cur : UInt8) (data : Bytes) (p : Prog Unit) (es : List Event) (h : Done p es ()) :
    Done ((if cur = 0 then Prog.call .certReset fun _ => .ret () else .ret ()).bind fun _ => .call (.certWrite data) fun _ => p)
      (stored cur data ++ es) () := by
  by_cases hc : cur = 0
  · rw [if_pos hc]
    simp only [stored, if_pos hc, Prog.bind]
    exact (done_call _ _ _ _).2 ⟨(), _, rfl, (done_call _ _ _ _).2 ⟨(), _, rfl, h⟩⟩
  · rw [if_neg hc]
    simp only [stored, if_neg hc, Prog.bind]
    exact (done_call _ _ _ _).2 ⟨(), _, rfl, h⟩

/-- Every complete course is specified. -/
theorem general_of_done (req : Command) (es : List Event) (u : Unit) (h : Done (handleGeneral req) es u) : General req es := by
  match hp : req.payload with
  | .nil =>
    simp only [handleGeneral, hp, done_ret] at h
    rw [h.1]; exact .nothing hp
  | .unknown b =>
    simp only [handleGeneral, hp, done_ack] at h
    obtain ⟨e, rfl⟩ := h
    exact .unknown b e hp
  | .ptr t v =>
    by_cases ht : ∀ g ∈ generalRequests, t ≠ .gen g
    · have : handleGeneral req = .ret () := by
        simp only [handleGeneral, hp]
        cases t with
        | gen g => cases g <;> first | rfl | (refine (ht _ ?_ rfl).elim; decide)
        | _ => rfl
      rw [this] at h
      rw [((done_ret _ _ _).1 h).1]
      exact .other t v hp ht
    · simp only [Classical.not_forall, Decidable.not_not] at ht
      obtain ⟨g, hg, rfl⟩ := ht
      cases g <;> first | (exact absurd hg (by decide)) | skip
      all_goals simp only [handleGeneral, hp] at h
      all_goals clear hg
      case RequestRemoteUIMode =>
        simp only [done_call, done_wrote _ (.gen .ReturnRemoteUIMode) _ 0x04 (by decide +kernel)] at h
        obtain ⟨m, _, rfl, e, rfl⟩ := h
        rw [extended_byte]
        exact .remoteUIMode v m e hp
      case RequestiPodName =>
        simp only [done_call, done_wrote _ (.gen .ReturniPodName) _ 0x08 (by decide +kernel)] at h
        obtain ⟨m, _, rfl, e, rfl⟩ := h
        exact .name v m e hp
      case RequestiPodSerialNum =>
        simp only [done_call, done_wrote _ (.gen .ReturniPodSerialNum) _ 0x0C (by decide +kernel)] at h
        obtain ⟨m, _, rfl, e, rfl⟩ := h
        exact .serial v m e hp
      case RequestTransportMaxPayloadSize =>
        simp only [done_call, done_wrote _ (.gen .ReturnTransportMaxPayloadSize) _ 0x12 (by decide +kernel)] at h
        obtain ⟨m, _, rfl, e, rfl⟩ := h
        exact .maxPayload v m e hp
      case GetUIMode =>
        simp only [done_call, done_wrote _ (.gen .RetUIMode) _ 0x36 (by decide +kernel)] at h
        obtain ⟨m, _, rfl, e, rfl⟩ := h
        exact .uiMode v m e hp
      case GetEventNotification =>
        simp only [done_call, done_wrote _ (.gen .RetEventNotification) _ 0x4E (by decide +kernel)] at h
        obtain ⟨m, _, rfl, e, rfl⟩ := h
        exact .events v m e hp
      case GetSupportedEventNotification =>
        simp only [done_call, done_wrote _ (.gen .RetSupportedEventNotification) _ 0x51 (by decide +kernel)] at h
        obtain ⟨m, _, rfl, e, rfl⟩ := h
        exact .supportedEvents v m e hp
      case RequestiPodSoftwareVersion =>
        simp only [done_call, done_wrote _ (.gen .ReturniPodSoftwareVersion) _ 0x0A (by decide +kernel)] at h
        obtain ⟨⟨a, b, c⟩, _, rfl, e, rfl⟩ := h
        exact .softwareVersion v a b c e hp
      case RequestLingoProtocolVersion =>
        simp only [done_call, done_wrote _ (.gen .ReturnLingoProtocolVersion) _ 0x10 (by decide +kernel)] at h
        obtain ⟨⟨a, b⟩, _, rfl, e, rfl⟩ := h
        exact .lingoVersion v.1 a b v.2 e hp
      case GetiPodPreferences =>
        simp only [done_call, done_wrote _ (.gen .RetiPodPreferences) _ 0x2A (by decide +kernel)] at h
        obtain ⟨m, _, rfl, e, rfl⟩ := h
        exact .preference v.1 m v.2 e hp
      case GetiPodOptionsForLingo =>
        simp only [done_call, done_wrote _ (.gen .RetiPodOptionsForLingo) _ 0x4C (by decide +kernel)] at h
        obtain ⟨m, _, rfl, e, rfl⟩ := h
        exact .optionsFor v.1 m v.2 e hp
      case RequestiPodModelNum =>
        simp only [done_wrote _ (.gen .ReturniPodModelNum) _ 0x0E (by decide +kernel)] at h
        obtain ⟨e, rfl⟩ := h
        rw [model_bytes]
        exact .model v e hp
      case RetDevAuthenticationSignature =>
        simp only [done_wrote _ (.gen .AckDevAuthenticationStatus) _ 0x19 (by decide +kernel)] at h
        obtain ⟨e, rfl⟩ := h
        exact .signature v e hp
      case GetiPodAuthenticationInfo =>
        simp only [done_wrote _ (.gen .RetiPodAuthenticationInfo) _ 0x1B (by decide +kernel)] at h
        obtain ⟨e, rfl⟩ := h
        exact .ownCert v e hp
      case GetiPodOptions =>
        simp only [done_wrote _ (.gen .RetiPodOptions) _ 0x25 (by decide +kernel)] at h
        obtain ⟨e, rfl⟩ := h
        exact .options v e hp
      case GetNowPlayingFocusApp =>
        simp only [done_wrote _ (.gen .RetNowPlayingFocusApp) _ 0x66 (by decide +kernel)] at h
        obtain ⟨e, rfl⟩ := h
        exact .focusApp v e hp
      case GetiPodAuthenticationSignature =>
        simp only [done_wrote _ (.gen .RetiPodAuthenticationSignature) _ 0x1E (by decide +kernel)] at h
        obtain ⟨e, rfl⟩ := h
        exact .ownSignature v.1 v.2 e hp
      case SetUIMode =>
        simp only [done_ackSuccess] at h
        obtain ⟨e, rfl⟩ := h
        exact .setUIMode v e hp
      case RequestApplicationLaunch =>
        simp only [done_ack] at h
        obtain ⟨e, rfl⟩ := h
        exact .launch v e hp
      case SetiPodPreferences =>
        simp only [done_call, done_ackSuccess] at h
        obtain ⟨_, _, rfl, e, rfl⟩ := h
        exact .setPreference v.1 v.2.1 v.2.2.1 v.2.2.2 e hp
      case SetEventNotification =>
        simp only [done_call, done_ackSuccess] at h
        obtain ⟨_, _, rfl, e, rfl⟩ := h
        exact .setEvents v.1 v.2 e hp
      case CancelCommand =>
        simp only [done_call, done_ackSuccess] at h
        obtain ⟨_, _, rfl, e, rfl⟩ := h
        exact .cancel v.1 v.2.1 v.2.2.1 v.2.2.2 e hp
      case StartIDPS =>
        simp only [done_call, done_ackSuccess] at h
        obtain ⟨_, _, rfl, _, _, rfl, e, rfl⟩ := h
        exact .startIDPS v e hp
      case SetFIDTokenValues =>
        simp only [done_bind, done_setTokens, done_wrote _ (.gen .RetFIDTokenValueACKs) _ 0x3A (by decide +kernel)] at h
        obtain ⟨_, _, _, rfl, ⟨errs, hl, rfl⟩, e, rfl⟩ := h
        exact .tokens v.1 v.2 errs _ e hp hl (ackTokens_ids _) (ackTokens_acks _)
      case EnterRemoteUIMode =>
        rw [done_call] at h
        obtain ⟨m, _, rfl, h⟩ := h
        by_cases hm : m = (0x01 : UInt8)
        · subst hm
          obtain ⟨e, rfl⟩ := (done_ackSuccess _ _ _).1 h
          exact .alreadyEntered v e hp
        · rw [if_neg hm] at h
          simp only [done_bind, done_call, done_ackPending, done_ackSuccess] at h
          obtain ⟨_, _, _, rfl, ⟨e1, rfl⟩, _, _, rfl, e2, rfl⟩ := h
          exact .enter v m e1 e2 hp hm
      case ExitRemoteUIMode =>
        rw [done_call] at h
        obtain ⟨m, _, rfl, h⟩ := h
        by_cases hm : m = (0x01 : UInt8)
        · subst hm
          rw [if_neg (by simp)] at h
          simp only [done_bind, done_call, done_ackPending, done_ackSuccess] at h
          obtain ⟨_, _, _, rfl, ⟨e1, rfl⟩, _, _, rfl, e2, rfl⟩ := h
          exact .leave v e1 e2 hp
        · rw [if_pos hm] at h
          obtain ⟨e, rfl⟩ := (done_ackSuccess _ _ _).1 h
          exact .alreadyLeft v m e hp hm
      case IdentifyDeviceLingoes =>
        obtain ⟨a, b, d, u'⟩ := v
        rw [done_bind] at h
        obtain ⟨_, _, _, rfl, h1, h⟩ := h
        obtain ⟨e1, rfl⟩ := (done_ackSuccess _ _ _).1 h1
        by_cases hd : d = 0
        · subst hd
          rw [if_neg (by simp)] at h
          rw [((done_ret _ _ _).1 h).1]
          exact .identify a b u' e1 hp
        · rw [if_pos hd] at h
          obtain ⟨e2, rfl⟩ := (done_wrote _ _ _ 0x14 (by decide +kernel) _ _).1 h
          exact .identifyAuth a b d u' e1 e2 hp hd
      case RetDevAuthenticationInfo =>
        obtain ⟨major, minor, cur, max, data, u'⟩ := v
        by_cases hm : major ≥ 2
        · rw [if_pos hm] at h
          have hm' : 2 ≤ major.toNat := UInt8.le_iff_toNat_le.1 hm
          rw [done_bind] at h
          obtain ⟨es1, _, es2, rfl, h1, h⟩ := h
          rw [done_call] at h
          obtain ⟨_, es3, rfl, h⟩ := h
          have hs : es1 ++ ⟨.certWrite data, some ()⟩ :: es3 = stored cur data ++ es3 := by
            by_cases hc : cur = 0
            · rw [if_pos hc] at h1
              rw [done_call] at h1
              obtain ⟨_, _, rfl, h1⟩ := h1
              rw [((done_ret _ _ _).1 h1).1]
              simp only [stored, if_pos hc]
              rfl
            · rw [if_neg hc] at h1
              rw [((done_ret _ _ _).1 h1).1]
              simp only [stored, if_neg hc]
              rfl
          rw [hs]
          by_cases hc : cur < max
          · rw [if_pos hc] at h
            obtain ⟨e, rfl⟩ := (done_ackSuccess _ _ _).1 h
            exact .certPart major minor cur max data u' e hp hm' (UInt8.lt_iff_toNat_lt.1 hc)
          · rw [if_neg hc] at h
            simp only [done_bind, done_call, done_wrote _ (.gen .AckDevAuthenticationInfo) _ 0x16 (by decide +kernel),
              done_wrote _ (.gen .GetDevAuthenticationSignatureV2) _ 0x17 (by decide +kernel)] at h
            obtain ⟨_, _, _, rfl, ⟨e1, rfl⟩, cert, _, rfl, _, _, rfl, e2, rfl⟩ := h
            exact .certLast major minor cur max data u' cert e1 e2 hp hm'
              (Nat.le_of_not_lt fun h => hc (UInt8.lt_iff_toNat_lt.2 h))
        · rw [if_neg hm] at h
          obtain ⟨e, rfl⟩ := (done_wrote _ _ _ 0x16 (by decide +kernel) _ _).1 h
          exact .oldCert major minor cur max data u' e hp
            (Nat.lt_of_not_le fun h => hm (UInt8.le_iff_toNat_le.2 h))
      case EndIDPS =>
        obtain ⟨status, u'⟩ := v
        rw [done_call] at h
        obtain ⟨_, _, rfl, h⟩ := h
        by_cases h0 : status = 0x00
        · subst h0
          rw [if_pos rfl] at h
          simp only [done_bind, done_wrote _ (.gen .IDPSStatus) _ 0x3C (by decide +kernel),
            done_originated (.gen .GetDevAuthenticationInfo) _ 0x14 (by decide +kernel)] at h
          obtain ⟨_, _, _, rfl, ⟨e1, rfl⟩, n, e2, rfl⟩ := h
          exact .endContinue u' e1 n e2 hp
        rw [if_neg h0] at h
        by_cases h1 : status = 0x01
        · subst h1
          rw [if_pos rfl] at h
          obtain ⟨e, rfl⟩ := (done_wrote _ _ _ 0x3C (by decide +kernel) _ _).1 h
          exact .endReset u' e hp
        rw [if_neg h1] at h
        by_cases h2 : status = 0x02
        · subst h2
          rw [if_pos rfl] at h
          obtain ⟨e, rfl⟩ := (done_wrote _ _ _ 0x3C (by decide +kernel) _ _).1 h
          exact .endAbandon u' e hp
        rw [if_neg h2] at h
        rw [((done_ret _ _ _).1 h).1]
        refine .endOther status u' hp ?_
        have a0 : status.toNat ≠ 0 := fun x => h0 (UInt8.toNat_inj.1 x)
        have a1 : status.toNat ≠ 1 := fun x => h1 (UInt8.toNat_inj.1 x)
        have a2 : status.toNat ≠ 2 := fun x => h2 (UInt8.toNat_inj.1 x)
        omega

/-- Every specified course is one of the handler. -/
theorem done_of_general (req : Command) (es : List Event) (h : General req es) : Done (handleGeneral req) es () := by
  cases h with
  | unknown b e hp => simp only [handleGeneral, hp, done_ack]; exact ⟨e, rfl⟩
  | nothing hp => simp only [handleGeneral, hp]; exact .ret _
  | other t v hp ht =>
    simp only [handleGeneral, hp]
    cases t with
    | gen g => cases g <;> first | exact .ret _ | (refine (ht _ ?_ rfl).elim; decide)
    | _ => exact .ret _
  | remoteUIMode v m e hp =>
    simp only [handleGeneral, hp, done_call, done_wrote _ (.gen .ReturnRemoteUIMode) _ 0x04 (by decide +kernel)]
    exact ⟨m, _, rfl, e, by rw [extended_byte]⟩
  | name v m e hp =>
    simp only [handleGeneral, hp, done_call, done_wrote _ (.gen .ReturniPodName) _ 0x08 (by decide +kernel)]
    exact ⟨m, _, rfl, e, rfl⟩
  | serial v m e hp =>
    simp only [handleGeneral, hp, done_call, done_wrote _ (.gen .ReturniPodSerialNum) _ 0x0C (by decide +kernel)]
    exact ⟨m, _, rfl, e, rfl⟩
  | maxPayload v m e hp =>
    simp only [handleGeneral, hp, done_call, done_wrote _ (.gen .ReturnTransportMaxPayloadSize) _ 0x12 (by decide +kernel)]
    exact ⟨m, _, rfl, e, rfl⟩
  | uiMode v m e hp =>
    simp only [handleGeneral, hp, done_call, done_wrote _ (.gen .RetUIMode) _ 0x36 (by decide +kernel)]
    exact ⟨m, _, rfl, e, rfl⟩
  | events v m e hp =>
    simp only [handleGeneral, hp, done_call, done_wrote _ (.gen .RetEventNotification) _ 0x4E (by decide +kernel)]
    exact ⟨m, _, rfl, e, rfl⟩
  | supportedEvents v m e hp =>
    simp only [handleGeneral, hp, done_call, done_wrote _ (.gen .RetSupportedEventNotification) _ 0x51 (by decide +kernel)]
    exact ⟨m, _, rfl, e, rfl⟩
  | softwareVersion v a b c e hp =>
    simp only [handleGeneral, hp, done_call, done_wrote _ (.gen .ReturniPodSoftwareVersion) _ 0x0A (by decide +kernel)]
    exact ⟨(a, b, c), _, rfl, e, rfl⟩
  | lingoVersion l a b u e hp =>
    simp only [handleGeneral, hp, done_call, done_wrote _ (.gen .ReturnLingoProtocolVersion) _ 0x10 (by decide +kernel)]
    exact ⟨(a, b), _, rfl, e, rfl⟩
  | preference l m u e hp =>
    simp only [handleGeneral, hp, done_call, done_wrote _ (.gen .RetiPodPreferences) _ 0x2A (by decide +kernel)]
    exact ⟨m, _, rfl, e, rfl⟩
  | optionsFor l m u e hp =>
    simp only [handleGeneral, hp, done_call, done_wrote _ (.gen .RetiPodOptionsForLingo) _ 0x4C (by decide +kernel)]
    exact ⟨m, _, rfl, e, rfl⟩
  | model v e hp =>
    simp only [handleGeneral, hp, done_wrote _ (.gen .ReturniPodModelNum) _ 0x0E (by decide +kernel), model_bytes]
    exact ⟨e, rfl⟩
  | signature v e hp =>
    simp only [handleGeneral, hp, done_wrote _ (.gen .AckDevAuthenticationStatus) _ 0x19 (by decide +kernel)]
    exact ⟨e, rfl⟩
  | ownCert v e hp =>
    simp only [handleGeneral, hp, done_wrote _ (.gen .RetiPodAuthenticationInfo) _ 0x1B (by decide +kernel)]
    exact ⟨e, rfl⟩
  | options v e hp =>
    simp only [handleGeneral, hp, done_wrote _ (.gen .RetiPodOptions) _ 0x25 (by decide +kernel)]
    exact ⟨e, rfl⟩
  | focusApp v e hp =>
    simp only [handleGeneral, hp, done_wrote _ (.gen .RetNowPlayingFocusApp) _ 0x66 (by decide +kernel)]
    exact ⟨e, rfl⟩
  | ownSignature ch u e hp =>
    simp only [handleGeneral, hp, done_wrote _ (.gen .RetiPodAuthenticationSignature) _ 0x1E (by decide +kernel)]
    exact ⟨e, rfl⟩
  | setUIMode v e hp =>
    simp only [handleGeneral, hp, done_ackSuccess]
    exact ⟨e, rfl⟩
  | launch v e hp =>
    simp only [handleGeneral, hp, done_ack]
    exact ⟨e, rfl⟩
  | setPreference a b r u e hp =>
    simp only [handleGeneral, hp, done_call, done_ackSuccess]
    exact ⟨(), _, rfl, e, rfl⟩
  | setEvents m u e hp =>
    simp only [handleGeneral, hp, done_call, done_ackSuccess]
    exact ⟨(), _, rfl, e, rfl⟩
  | cancel l c t u e hp =>
    simp only [handleGeneral, hp, done_call, done_ackSuccess]
    exact ⟨(), _, rfl, e, rfl⟩
  | startIDPS v e hp =>
    simp only [handleGeneral, hp, done_call, done_ackSuccess]
    exact ⟨(), _, rfl, (), _, rfl, e, rfl⟩
  | tokens ts u errs acks e hp hl h1 h2 =>
    have : acks = ackFIDTokenValues ts :=
      acks_ext _ _ (h1.trans (ackTokens_ids ts).symm) (h2.trans (ackTokens_acks ts).symm)
    subst this
    simp only [handleGeneral, hp, done_bind, done_setTokens, done_wrote _ (.gen .RetFIDTokenValueACKs) _ 0x3A (by decide +kernel)]
    exact ⟨_, (), _, rfl, ⟨errs, hl, rfl⟩, e, rfl⟩
  | alreadyEntered v e hp =>
    simp only [handleGeneral, hp, done_call]
    exact ⟨(0x01 : UInt8), _, rfl, (done_ackSuccess _ _ _).2 ⟨e, rfl⟩⟩
  | enter v m e1 e2 hp hm =>
    simp only [handleGeneral, hp, done_call]
    refine ⟨m, _, rfl, ?_⟩
    rw [if_neg hm]
    simp only [done_bind, done_call, done_ackPending, done_ackSuccess]
    exact ⟨[_], (), _, rfl, ⟨e1, rfl⟩, (), _, rfl, e2, rfl⟩
  | alreadyLeft v m e hp hm =>
    simp only [handleGeneral, hp, done_call]
    refine ⟨m, _, rfl, ?_⟩
    rw [if_pos hm]
    exact (done_ackSuccess _ _ _).2 ⟨e, rfl⟩
  | leave v e1 e2 hp =>
    simp only [handleGeneral, hp, done_call]
    refine ⟨(0x01 : UInt8), _, rfl, ?_⟩
    rw [if_neg (by simp)]
    simp only [done_bind, done_call, done_ackPending, done_ackSuccess]
    exact ⟨[_], (), _, rfl, ⟨e1, rfl⟩, (), _, rfl, e2, rfl⟩
  | identify a b u e hp =>
    simp only [handleGeneral, hp, done_bind, done_ackSuccess]
    exact ⟨[_], (), [], rfl, ⟨e, rfl⟩, .ret _⟩
  | identifyAuth a b d u e1 e2 hp hd =>
    simp only [handleGeneral, hp, done_bind, done_ackSuccess]
    refine ⟨[_], (), [_], rfl, ⟨e1, rfl⟩, ?_⟩
    rw [if_pos hd]
    exact (done_wrote _ _ _ 0x14 (by decide +kernel) _ _).2 ⟨e2, rfl⟩
  | oldCert major minor cur max data u e hp hm =>
    simp only [handleGeneral, hp]
    rw [if_neg (fun h => absurd (UInt8.le_iff_toNat_le.1 h) (Nat.not_le_of_lt hm))]
    exact (done_wrote _ _ _ 0x16 (by decide +kernel) _ _).2 ⟨e, rfl⟩
  | certPart major minor cur max data u e hp hm hc =>
    simp only [handleGeneral, hp]
    rw [if_pos (show major ≥ 2 from UInt8.le_iff_toNat_le.2 hm)]
    refine done_stored cur data _ _ ?_
    rw [if_pos (UInt8.lt_iff_toNat_lt.2 hc)]
    exact (done_ackSuccess _ _ _).2 ⟨e, rfl⟩
  | certLast major minor cur max data u cert e1 e2 hp hm hc =>
    simp only [handleGeneral, hp]
    rw [if_pos (show major ≥ 2 from UInt8.le_iff_toNat_le.2 hm)]
    refine done_stored cur data _ _ ?_
    rw [if_neg (fun h => absurd (UInt8.lt_iff_toNat_lt.1 h) (Nat.not_lt_of_le hc))]
    simp only [done_bind, done_call, done_wrote _ (.gen .AckDevAuthenticationInfo) _ 0x16 (by decide +kernel),
      done_wrote _ (.gen .GetDevAuthenticationSignatureV2) _ 0x17 (by decide +kernel)]
    exact ⟨[_], (), _, rfl, ⟨e1, rfl⟩, cert, _, rfl, (), _, rfl, e2, rfl⟩
  | endContinue u e1 n e2 hp =>
    simp only [handleGeneral, hp, done_call]
    refine ⟨(), _, rfl, ?_⟩
    rw [if_pos trivial]
    simp only [done_bind, done_wrote _ (.gen .IDPSStatus) _ 0x3C (by decide +kernel),
      done_originated (.gen .GetDevAuthenticationInfo) _ 0x14 (by decide +kernel)]
    exact ⟨[_], (), _, rfl, ⟨e1, rfl⟩, n, e2, rfl⟩
  | endReset u e hp =>
    simp only [handleGeneral, hp, done_call]
    refine ⟨(), _, rfl, ?_⟩
    rw [if_neg (by decide), if_pos trivial]
    exact (done_wrote _ _ _ 0x3C (by decide +kernel) _ _).2 ⟨e, rfl⟩
  | endAbandon u e hp =>
    simp only [handleGeneral, hp, done_call]
    refine ⟨(), _, rfl, ?_⟩
    rw [if_neg (by decide), if_neg (by decide), if_pos trivial]
    exact (done_wrote _ _ _ 0x3C (by decide +kernel) _ _).2 ⟨e, rfl⟩
  | endOther status u hp hs =>
    simp only [handleGeneral, hp, done_call]
    refine ⟨(), _, rfl, ?_⟩
    have ne : ∀ k : UInt8, k.toNat < 3 → status ≠ k := by rintro k hk rfl; omega
    rw [if_neg (ne 0 (by decide)), if_neg (ne 1 (by decide)), if_neg (ne 2 (by decide))]
    exact .ret _

end Ipod.Effects
