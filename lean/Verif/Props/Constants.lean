import Verif.Spec.Constants
import Verif.Props.Replies

/-! # Property C69: the constant answers -/

namespace Props
open Go Spec Ipod

theorem decodePayload_of_dec {t : TypeId} {n : Nat} (hs : t.size = some n) {body : Bytes} (hb : body.length = n) {v : t.Val}
    (hv : decStruct t.schema body = some v) : decodePayload t body = .ret (.ok v) := by
  have h2 : structSize t.schema = some n := hs
  simp only [decodePayload, (fixed_no_codec hs v body).2, binRead, h2, hb, Nat.lt_irrefl, if_false]
  rw [List.take_of_length_le (by omega), hv]

/-- The types that switch transactions on or off. -/
def Switches (t : TypeId) : Prop := t.id ∈ [(0x00 : UInt32), 0x13, 0x38]

theorem no_switch {t : TypeId} (h : ¬ Switches t) (m : Bool) : handleCmdID m t.id = m := by
  simp only [Switches, List.mem_cons, List.not_mem_nil, or_false, not_or] at h
  rw [handleCmdID_eq, if_neg (fun x => x.elim h.1 h.2.1), if_neg h.2.2]

/-- One request of fixed size in, one message out. -/
theorem exchange {σ : Type} {D : Device σ} {clock : Clock} {c : Ctx σ} {mode : Bool} {trx : Option UInt16}
    (hm : trx.isSome = true → mode = true) (t t' : TypeId) {n : Nat} (hs : t.size = some n)
    (hne : t ≠ .gen .ACKDataDropped) (hsw : ¬ Switches t) (hsw' : ¬ Switches t') {body : Bytes} (hb : body.length = n)
    {reply : Bytes}
    (hh : ∀ v, decStruct t.schema body = some v → ∃ v' c', handlePacket D clock ⟨t.id, trx, .ptr t v⟩ c = .ret c' ∧
      c'.dev = c.dev ∧ c'.out = c.out ++ [⟨t'.id, trx, .ptr t' v'⟩] ∧ encodePayload (.ptr t' v') = .ok reply) :
    ∃ cmd, unmarshalCmd mode (packetOf t.lingo t.cmd trx body) = .ret (mode, cmd, none) ∧
      ∀ c' new, Handles D clock cmd c c' new → c'.dev = c.dev ∧
        ∃ x, new = [x] ∧ marshalCmd mode x = (mode, .ok (packetOf t'.lingo t'.cmd trx reply)) := by
  obtain ⟨v, hv⟩ := decStruct_isSome (fs := t.schema) hs body (by omega)
  obtain ⟨v', c1, h1, h2, h3, h4⟩ := hh v hv
  refine ⟨⟨t.id, trx, .ptr t v⟩, ?_, ?_⟩
  · have := unmarshalCmd_built mode t trx body v ?_ (decodePayload_of_dec hs hb hv)
    · rw [no_switch hsw, trxBytes_eq] at this
      exact this
    · rw [trxBytes_length, hb]
      cases trx with
      | none => simpa using lookup_plain hs hne _
      | some tr =>
        have := lookup_trx hs (handleCmdID mode t.id)
        rw [Nat.add_comm] at this
        simpa using this
  · rintro c' new ⟨e1, e2⟩
    rw [h1] at e1
    cases e1
    rw [h3] at e2
    refine ⟨h2, _, out1 e2, ?_⟩
    rw [marshalCmd_eq]
    simp only [no_switch hsw', lingoID_id, cmdID_id, h4]
    have : sentTrx mode trx = trx := by
      unfold sentTrx
      cases trx with
      | none => simp
      | some _ => simp [hm rfl]
    rw [this, trxBytes_eq]
    rfl

theorem handlePacket_disp {σ : Type} (D : Device σ) (clock : Clock) (t : DispT) (trx : Option UInt16) (p : Payload) (c : Ctx σ) :
    handlePacket D clock ⟨(TypeId.disp t).id, trx, p⟩ c = handleDispRemote clock ⟨(TypeId.disp t).id, trx, p⟩ c := by
  have : LingoCmdID.lingoID (TypeId.disp t).id = 0x03 := lingoID_id _
  simp only [handlePacket, this]
  rfl

theorem handlePacket_ext {σ : Type} (D : Device σ) (clock : Clock) (t : ExtT) (trx : Option UInt16) (p : Payload) (c : Ctx σ) :
    handlePacket D clock ⟨(TypeId.ext t).id, trx, p⟩ c = handleExtRemote ⟨(TypeId.ext t).id, trx, p⟩ c := by
  have : LingoCmdID.lingoID (TypeId.ext t).id = 0x04 := lingoID_id _
  simp only [handlePacket, this]
  rfl

theorem handlePacket_gen {σ : Type} (D : Device σ) (clock : Clock) (t : GenT) (trx : Option UInt16) (p : Payload) (c : Ctx σ)
    (h : authComplete p = false) :
    handlePacket D clock ⟨(TypeId.gen t).id, trx, p⟩ c = handleGeneral D ⟨(TypeId.gen t).id, trx, p⟩ c := by
  have hl : LingoCmdID.lingoID (TypeId.gen t).id = 0x00 := lingoID_id (.gen t)
  rw [handlePacket_general D clock ⟨(TypeId.gen t).id, trx, p⟩ c hl]
  simp only [afterAudio, h, Bool.false_eq_true, if_false]

theorem const_gen {σ : Type} {D : Device σ} {clock : Clock} {c : Ctx σ} {mode : Bool} {trx : Option UInt16} {body : Bytes}
    (hm : trx.isSome = true → mode = true) (t t' : GenT) {n : Nat} (hs : (TypeId.gen t).size = some n) (hl : body.length = n)
    (v' : (TypeId.gen t').Val) (reply : Bytes) (he : encodePayload (.ptr (.gen t') v') = .ok reply)
    (hh : ∀ v, handleGeneral D ⟨(TypeId.gen t).id, trx, .ptr (.gen t) v⟩ c =
      c.respond ⟨(TypeId.gen t).id, trx, .ptr (.gen t) v⟩ (.gen t') v')
    (hsw : ¬ Switches (.gen t)) (hsw' : ¬ Switches (.gen t'))
    (ha : ∀ v, authComplete (.ptr (.gen t) v) = false) (hne : TypeId.gen t ≠ .gen .ACKDataDropped) :
    AnsweredBy D clock c mode (packetOf (TypeId.gen t).lingo (TypeId.gen t).cmd trx body)
      (packetOf (TypeId.gen t').lingo (TypeId.gen t').cmd trx reply) := by
  refine exchange hm _ _ hs hne hsw hsw' hl fun v _ =>
    ⟨v', { c with out := c.out ++ [⟨(TypeId.gen t').id, trx, .ptr (.gen t') v'⟩] }, ?_, rfl, rfl, he⟩
  rw [handlePacket_gen _ _ _ _ _ _ (ha v), hh, respond_eq]

theorem const_disp {σ : Type} {D : Device σ} {clock : Clock} {c : Ctx σ} {mode : Bool} {trx : Option UInt16} {body : Bytes}
    (hm : trx.isSome = true → mode = true) (t t' : DispT) {n : Nat} (hs : (TypeId.disp t).size = some n) (hl : body.length = n)
    (v' : (TypeId.disp t').Val) (reply : Bytes) (he : encodePayload (.ptr (.disp t') v') = .ok reply)
    (hh : ∀ v, handleDispRemote clock ⟨(TypeId.disp t).id, trx, .ptr (.disp t) v⟩ c =
      c.respond ⟨(TypeId.disp t).id, trx, .ptr (.disp t) v⟩ (.disp t') v')
    (hsw : ¬ Switches (.disp t)) (hsw' : ¬ Switches (.disp t')) :
    AnsweredBy D clock c mode (packetOf (TypeId.disp t).lingo (TypeId.disp t).cmd trx body)
      (packetOf (TypeId.disp t').lingo (TypeId.disp t').cmd trx reply) := by
  refine exchange hm _ _ hs (by simp) hsw hsw' hl fun v _ =>
    ⟨v', { c with out := c.out ++ [⟨(TypeId.disp t').id, trx, .ptr (.disp t') v'⟩] }, ?_, rfl, rfl, he⟩
  rw [handlePacket_disp, hh, respond_eq]

theorem const_ext {σ : Type} {D : Device σ} {clock : Clock} {c : Ctx σ} {mode : Bool} {trx : Option UInt16} {body : Bytes}
    (hm : trx.isSome = true → mode = true) (t t' : ExtT) {n : Nat} (hs : (TypeId.ext t).size = some n) (hl : body.length = n)
    (v' : (TypeId.ext t').Val) (reply : Bytes) (he : encodePayload (.ptr (.ext t') v') = .ok reply)
    (hh : ∀ v, handleExtRemote ⟨(TypeId.ext t).id, trx, .ptr (.ext t) v⟩ c =
      c.respond ⟨(TypeId.ext t).id, trx, .ptr (.ext t) v⟩ (.ext t') v')
    (hsw : ¬ Switches (.ext t)) (hsw' : ¬ Switches (.ext t')) :
    AnsweredBy D clock c mode (packetOf (TypeId.ext t).lingo (TypeId.ext t).cmd trx body)
      (packetOf (TypeId.ext t').lingo (TypeId.ext t').cmd trx reply) := by
  refine exchange hm _ _ hs (by simp) hsw hsw' hl fun v _ =>
    ⟨v', { c with out := c.out ++ [⟨(TypeId.ext t').id, trx, .ptr (.ext t') v'⟩] }, ?_, rfl, rfl, he⟩
  rw [handlePacket_ext, hh, respond_eq]

theorem const_dispAck {σ : Type} {D : Device σ} {clock : Clock} {c : Ctx σ} {mode : Bool} {trx : Option UInt16} {body : Bytes}
    (hm : trx.isSome = true → mode = true) (t : DispT) {n : Nat} (hs : (TypeId.disp t).size = some n) (hl : body.length = n)
    (hh : ∀ v, handleDispRemote clock ⟨(TypeId.disp t).id, trx, .ptr (.disp t) v⟩ c =
      c.dispAck ⟨(TypeId.disp t).id, trx, .ptr (.disp t) v⟩) (hsw : ¬ Switches (.disp t)) :
    AnsweredBy D clock c mode (packetOf (TypeId.disp t).lingo (TypeId.disp t).cmd trx body)
      (packetOf 0x03 0x00 trx [0x00, (TypeId.disp t).cmd.toUInt8]) := by
  refine const_disp hm t .ACK hs hl (0x00, (TypeId.disp t).cmd.toUInt8, ()) _ rfl ?_ hsw (by unfold Switches; decide +kernel)
  intro v
  rw [hh, Ctx.dispAck, cmdID_id]

theorem const_extAck {σ : Type} {D : Device σ} {clock : Clock} {c : Ctx σ} {mode : Bool} {trx : Option UInt16} {body : Bytes}
    (hm : trx.isSome = true → mode = true) (t : ExtT) {n : Nat} (hs : (TypeId.ext t).size = some n) (hl : body.length = n)
    (status : UInt8)
    (hh : ∀ v, handleExtRemote ⟨(TypeId.ext t).id, trx, .ptr (.ext t) v⟩ c = c.respond ⟨(TypeId.ext t).id, trx, .ptr (.ext t) v⟩
        (.ext .ACK) (status, LingoCmdID.cmdID (TypeId.ext t).id, ())) (hsw : ¬ Switches (.ext t)) :
    AnsweredBy D clock c mode (packetOf (TypeId.ext t).lingo (TypeId.ext t).cmd trx body)
      (packetOf 0x04 0x01 trx (status :: beEnc 2 (TypeId.ext t).cmd.toNat)) := by
  refine const_ext hm t .ACK hs hl (status, (TypeId.ext t).cmd, ()) _ rfl ?_ hsw (by unfold Switches; decide +kernel)
  intro v
  rw [hh, cmdID_id]

/-- C69. The requests of the table get their constant answer: one packet, the same for every body of the right length, every
device and every state, carrying the request's transaction; and the device stays as it is. -/
theorem C69_constant_replies {σ : Type} {D : Device σ} {clock : Clock} {c : Ctx σ} (r : ConstantReply)
    (hr : r ∈ constantReplies) (body : Bytes) (hb : body.length = r.len) (mode : Bool) (trx : Option UInt16)
    (hm : trx.isSome = true → mode = true) :
    AnsweredBy D clock c mode (packetOf r.lingo r.request trx body) (packetOf r.lingo r.reply trx r.body) := by
  simp only [constantReplies, List.mem_cons, List.not_mem_nil, or_false] at hr
  rcases hr with rfl | hr
  · exact const_gen hm .RequestiPodModelNum .ReturniPodModelNum rfl hb _ _ (by decide +kernel) (fun _ => rfl) (by unfold Switches; decide +kernel) (by unfold Switches; decide +kernel) (fun _ => rfl) (by simp)
  rcases hr with rfl | hr
  · exact const_gen hm .GetiPodOptions .RetiPodOptions rfl hb _ _ rfl (fun _ => rfl) (by unfold Switches; decide +kernel) (by unfold Switches; decide +kernel) (fun _ => rfl) (by simp)
  rcases hr with rfl | hr
  · refine const_gen hm .SetUIMode .ACK rfl hb (0x00, 0x37, ()) _ rfl (fun _ => ?_) (by unfold Switches; decide +kernel) (by unfold Switches; decide +kernel) (fun _ => rfl) (by simp)
    simp only [handleGeneral, Ctx.ackSuccess, cmdID_id]
    rfl
  rcases hr with rfl | hr
  · exact const_disp hm .GetCurrentEQProfileIndex .RetCurrentEQProfileIndex rfl hb _ _ rfl (fun _ => rfl) (by unfold Switches; decide +kernel) (by unfold Switches; decide +kernel)
  rcases hr with rfl | hr
  · exact const_dispAck hm .SetCurrentEQProfileIndex rfl hb (fun _ => rfl) (by unfold Switches; decide +kernel)
  rcases hr with rfl | hr
  · exact const_disp hm .GetNumEQProfiles .RetNumEQProfiles rfl hb _ _ rfl (fun _ => rfl) (by unfold Switches; decide +kernel) (by unfold Switches; decide +kernel)
  rcases hr with rfl | hr
  · exact const_dispAck hm .SetRemoteEventNotification rfl hb (fun _ => rfl) (by unfold Switches; decide +kernel)
  rcases hr with rfl | hr
  · exact const_disp hm .GetRemoteEventStatus .RetRemoteEventStatus rfl hb _ _ rfl (fun _ => rfl) (by unfold Switches; decide +kernel) (by unfold Switches; decide +kernel)
  rcases hr with rfl | hr
  · exact const_dispAck hm .SetiPodStateInfo rfl hb (fun _ => rfl) (by unfold Switches; decide +kernel)
  rcases hr with rfl | hr
  · exact const_disp hm .GetPlayStatus .RetPlayStatus rfl hb _ _ rfl (fun _ => rfl) (by unfold Switches; decide +kernel) (by unfold Switches; decide +kernel)
  rcases hr with rfl | hr
  · exact const_dispAck hm .SetCurrentPlayingTrack rfl hb (fun _ => rfl) (by unfold Switches; decide +kernel)
  rcases hr with rfl | hr
  · exact const_disp hm .GetNumPlayingTracks .RetNumPlayingTracks rfl hb _ _ rfl (fun _ => rfl) (by unfold Switches; decide +kernel) (by unfold Switches; decide +kernel)
  rcases hr with rfl | hr
  · exact const_disp hm .GetPowerBatteryState .RetPowerBatteryState rfl hb _ _ rfl (fun _ => rfl) (by unfold Switches; decide +kernel) (by unfold Switches; decide +kernel)
  rcases hr with rfl | hr
  · exact const_disp hm .GetSoundCheckState .RetSoundCheckState rfl hb _ _ rfl (fun _ => rfl) (by unfold Switches; decide +kernel) (by unfold Switches; decide +kernel)
  rcases hr with rfl | hr
  · exact const_dispAck hm .SetSoundCheckState rfl hb (fun _ => rfl) (by unfold Switches; decide +kernel)
  rcases hr with rfl | hr
  · exact const_ext hm .GetCurrentPlayingTrackChapterInfo .ReturnCurrentPlayingTrackChapterInfo rfl hb _ _ (by decide +kernel) (fun _ => rfl) (by unfold Switches; decide +kernel) (by unfold Switches; decide +kernel)
  rcases hr with rfl | hr
  · exact const_extAck hm .SetCurrentPlayingTrackChapter rfl hb 0x00 (fun _ => rfl) (by unfold Switches; decide +kernel)
  rcases hr with rfl | hr
  · exact const_ext hm .GetCurrentPlayingTrackChapterPlayStatus .ReturnCurrentPlayingTrackChapterPlayStatus rfl hb _ _ (by decide +kernel) (fun _ => rfl) (by unfold Switches; decide +kernel) (by unfold Switches; decide +kernel)
  rcases hr with rfl | hr
  · exact const_ext hm .GetAudiobookSpeed .ReturnAudiobookSpeed rfl hb _ _ (by decide +kernel) (fun _ => rfl) (by unfold Switches; decide +kernel) (by unfold Switches; decide +kernel)
  rcases hr with rfl | hr
  · exact const_extAck hm .SetAudiobookSpeed rfl hb 0x00 (fun _ => rfl) (by unfold Switches; decide +kernel)
  rcases hr with rfl | hr
  · exact const_ext hm .GetArtworkFormats .RetArtworkFormats rfl hb _ _ (by decide +kernel) (fun _ => rfl) (by unfold Switches; decide +kernel) (by unfold Switches; decide +kernel)
  rcases hr with rfl | hr
  · exact const_extAck hm .GetTrackArtworkData rfl hb 0x02 (fun _ => rfl) (by unfold Switches; decide +kernel)
  rcases hr with rfl | hr
  · exact const_extAck hm .ResetDBSelection rfl hb 0x00 (fun _ => rfl) (by unfold Switches; decide +kernel)
  rcases hr with rfl | hr
  · exact const_extAck hm .SelectDBRecord rfl hb 0x00 (fun _ => rfl) (by unfold Switches; decide +kernel)
  rcases hr with rfl | hr
  · exact const_ext hm .GetNumberCategorizedDBRecords .ReturnNumberCategorizedDBRecords rfl hb _ _ (by decide +kernel) (fun _ => rfl) (by unfold Switches; decide +kernel) (by unfold Switches; decide +kernel)
  rcases hr with rfl | hr
  · exact const_ext hm .RetrieveCategorizedDatabaseRecords .ReturnCategorizedDatabaseRecord rfl hb _ _ (by decide +kernel) (fun _ => rfl) (by unfold Switches; decide +kernel) (by unfold Switches; decide +kernel)
  rcases hr with rfl | hr
  · exact const_ext hm .GetPlayStatus .ReturnPlayStatus rfl hb _ _ (by decide +kernel) (fun _ => rfl) (by unfold Switches; decide +kernel) (by unfold Switches; decide +kernel)
  rcases hr with rfl | hr
  · exact const_ext hm .GetCurrentPlayingTrackIndex .ReturnCurrentPlayingTrackIndex rfl hb _ _ (by decide +kernel) (fun _ => rfl) (by unfold Switches; decide +kernel) (by unfold Switches; decide +kernel)
  rcases hr with rfl | hr
  · exact const_ext hm .GetIndexedPlayingTrackTitle .ReturnIndexedPlayingTrackTitle rfl hb _ _ (by decide +kernel) (fun _ => rfl) (by unfold Switches; decide +kernel) (by unfold Switches; decide +kernel)
  rcases hr with rfl | hr
  · exact const_ext hm .GetIndexedPlayingTrackArtistName .ReturnIndexedPlayingTrackArtistName rfl hb _ _ (by decide +kernel) (fun _ => rfl) (by unfold Switches; decide +kernel) (by unfold Switches; decide +kernel)
  rcases hr with rfl | hr
  · exact const_ext hm .GetIndexedPlayingTrackAlbumName .ReturnIndexedPlayingTrackAlbumName rfl hb _ _ (by decide +kernel) (fun _ => rfl) (by unfold Switches; decide +kernel) (by unfold Switches; decide +kernel)
  rcases hr with rfl | hr
  · exact const_extAck hm .SetPlayStatusChangeNotification rfl hb 0x00 (fun _ => rfl) (by unfold Switches; decide +kernel)
  rcases hr with rfl | hr
  · exact const_extAck hm .SetPlayStatusChangeNotificationShort rfl hb 0x00 (fun _ => rfl) (by unfold Switches; decide +kernel)
  rcases hr with rfl | hr
  · exact const_extAck hm .PlayCurrentSelection rfl hb 0x00 (fun _ => rfl) (by unfold Switches; decide +kernel)
  rcases hr with rfl | hr
  · exact const_extAck hm .PlayControl rfl hb 0x00 (fun _ => rfl) (by unfold Switches; decide +kernel)
  rcases hr with rfl | hr
  · exact const_ext hm .GetTrackArtworkTimes .RetTrackArtworkTimes rfl hb _ _ (by decide +kernel) (fun _ => rfl) (by unfold Switches; decide +kernel) (by unfold Switches; decide +kernel)
  rcases hr with rfl | hr
  · exact const_ext hm .GetShuffle .ReturnShuffle rfl hb _ _ (by decide +kernel) (fun _ => rfl) (by unfold Switches; decide +kernel) (by unfold Switches; decide +kernel)
  rcases hr with rfl | hr
  · exact const_extAck hm .SetShuffle rfl hb 0x00 (fun _ => rfl) (by unfold Switches; decide +kernel)
  rcases hr with rfl | hr
  · exact const_ext hm .GetRepeat .ReturnRepeat rfl hb _ _ (by decide +kernel) (fun _ => rfl) (by unfold Switches; decide +kernel) (by unfold Switches; decide +kernel)
  rcases hr with rfl | hr
  · exact const_extAck hm .SetRepeat rfl hb 0x00 (fun _ => rfl) (by unfold Switches; decide +kernel)
  rcases hr with rfl | hr
  · exact const_extAck hm .SetDisplayImage rfl hb 0x00 (fun _ => rfl) (by unfold Switches; decide +kernel)
  rcases hr with rfl | hr
  · exact const_ext hm .GetMonoDisplayImageLimits .ReturnMonoDisplayImageLimits rfl hb _ _ (by decide +kernel) (fun _ => rfl) (by unfold Switches; decide +kernel) (by unfold Switches; decide +kernel)
  rcases hr with rfl | hr
  · exact const_ext hm .GetNumPlayingTracks .ReturnNumPlayingTracks rfl hb _ _ (by decide +kernel) (fun _ => rfl) (by unfold Switches; decide +kernel) (by unfold Switches; decide +kernel)
  rcases hr with rfl | hr
  · exact const_ext hm .GetColorDisplayImageLimits .ReturnColorDisplayImageLimits rfl hb _ _ (by decide +kernel) (fun _ => rfl) (by unfold Switches; decide +kernel) (by unfold Switches; decide +kernel)
  subst hr
  exact const_extAck hm .ResetDBSelectionHierarchy rfl hb 0x02 (fun _ => rfl) (by unfold Switches; decide +kernel)

theorem dec_first {fs : List FTy} {ty : UInt8} {b : Bytes} {v : SVal (.u8 :: fs)} (h : decStruct (.u8 :: fs) (ty :: b) = some v) :
    v.1 = ty := by
  simp only [decStruct, FTy.size, Option.bind_eq_bind, Option.bind_some, List.take_succ_cons, List.take_zero, FTy.dec] at h
  cases hd : decStruct fs (List.drop 1 (ty :: b)) with
  | none => rw [hd] at h; cases h
  | some w => rw [hd] at h; cases h; rfl

theorem exists_stateInfo {now : Time} {ty : UInt8} {b : Bytes} (h : StateInfo now ty b) :
    ∃ i, dispStateInfo ty now = some i ∧ marshalDispState ty i = ty :: b := by
  cases h with
  | time y hy =>
    refine ⟨_, rfl, ?_⟩
    rw [isBE_enc2 _ _ hy]
    rfl
  | _ => exact ⟨_, rfl, rfl⟩

/-- C69. State infos: the constants, and the time of day for info 9. -/
theorem C69_state_info {σ : Type} {D : Device σ} {clock : Clock} {c : Ctx σ} (ty : UInt8) (b : Bytes)
    (h : StateInfo (clock c.ticks) ty b) (mode : Bool) (trx : Option UInt16) (hm : trx.isSome = true → mode = true) :
    AnsweredBy D clock c mode (packetOf 0x03 0x0C trx [ty]) (packetOf 0x03 0x0D trx (ty :: b)) := by
  obtain ⟨i, h1, h2⟩ := exists_stateInfo h
  refine exchange hm (.disp .GetiPodStateInfo) (.disp .RetiPodStateInfo) (n := 1) rfl (by simp) (by unfold Switches; decide +kernel)
    (by unfold Switches; decide +kernel) rfl fun v hv => ?_
  have hv' : v = (ty, ()) := (Option.some.inj hv).symm
  subst hv'
  refine ⟨(ty, i, ()), { (if ty = 9 then { c with ticks := c.ticks + 1 } else c) with
    out := c.out ++ [⟨(TypeId.disp .RetiPodStateInfo).id, trx, .ptr (.disp .RetiPodStateInfo) (ty, i, ())⟩] }, ?_, ?_, ?_, ?_⟩
  · rw [handlePacket_disp]
    simp only [handleDispRemote, h1, respond_eq]
    split <;> rfl
  · split <;> rfl
  · rfl
  · simp only [encodePayload, TypeId.marshalBinary, h2]

example {σ : Type} (D : Device σ) (c : Ctx σ) : AnsweredBy D (fun _ => ⟨2024, 2, 29, 12, 30⟩) c false (packetOf 0x03 0x0C none [0x09])
    (packetOf 0x03 0x0D none [0x09, 0x07, 0xE8, 2, 29, 12, 30]) :=
  C69_state_info 0x09 [0x07, 0xE8, 2, 29, 12, 30] (.time [0x07, 0xE8] ⟨rfl, by decide⟩) false none (by simp)

/-- C69. Track infos of Display Remote, for every track and chapter. -/
theorem C69_track_info {σ : Type} {D : Device σ} {clock : Clock} {c : Ctx σ} (ty : UInt8) (b : Bytes)
    (h : TrackInfo ty b) (which : Bytes) (hw : which.length = 6) (mode : Bool) (trx : Option UInt16)
    (hm : trx.isSome = true → mode = true) :
    AnsweredBy D clock c mode (packetOf 0x03 0x12 trx (ty :: which)) (packetOf 0x03 0x13 trx (ty :: b)) := by
  have : ∃ i, dispTrackInfo ty = some i ∧ marshalDispTrack ty i = ty :: b := by
    cases h with
    | caps => exact ⟨_, rfl, rfl⟩
    | artworkCount => exact ⟨_, rfl, rfl⟩
    | text _ h1 h2 =>
      have : ty.toNat = 1 ∨ ty.toNat = 2 ∨ ty.toNat = 3 ∨ ty.toNat = 4 ∨ ty.toNat = 5 ∨ ty.toNat = 6 ∨ ty.toNat = 7 := by omega
      unfold dispTrackInfo
      rcases this with h | h | h | h | h | h | h <;> rw [h] <;> exact ⟨_, rfl, rfl⟩
  obtain ⟨i, h1, h2⟩ := this
  refine exchange hm (.disp .GetIndexedPlayingTrackInfo) (.disp .RetIndexedPlayingTrackInfo) (n := 7) rfl (by simp)
    (by unfold Switches; decide +kernel) (by unfold Switches; decide +kernel) (by simp [hw]) fun v hv => ?_
  have hv' : v.1 = ty := dec_first hv
  obtain ⟨ty', track, chapter, u⟩ := v
  simp only at hv'
  subst hv'
  refine ⟨(ty', i, ()), { c with
    out := c.out ++ [⟨(TypeId.disp .RetIndexedPlayingTrackInfo).id, trx, .ptr (.disp .RetIndexedPlayingTrackInfo) (ty', i, ())⟩] },
    ?_, rfl, rfl, ?_⟩
  · rw [handlePacket_disp]
    simp only [handleDispRemote, h1, respond_eq]
  · simp only [encodePayload, TypeId.marshalBinary, h2]

/-- C69. Track infos of Extended Remote, for every info type, track and chapter. -/
theorem C69_ext_track_info {σ : Type} {D : Device σ} {clock : Clock} {c : Ctx σ} (ty : UInt8) (b : Bytes)
    (h : ExtTrackInfo ty b) (which : Bytes) (hw : which.length = 6) (mode : Bool) (trx : Option UInt16)
    (hm : trx.isSome = true → mode = true) :
    AnsweredBy D clock c mode (packetOf 0x04 0x0C trx (ty :: which)) (packetOf 0x04 0x0D trx (ty :: b)) := by
  have h2 : marshalExtInfo ty (extTrackInfo ty) = .ok (ty :: b) := by
    cases h with
    | other _ h =>
      simp only [List.mem_cons, List.not_mem_nil, or_false, not_or] at h
      unfold extTrackInfo
      rw [if_neg h.1, if_neg (fun x => x.elim h.2.1 h.2.2.1), if_neg h.2.2.2]
      rfl
    | _ => rfl
  refine exchange hm (.ext .GetIndexedPlayingTrackInfo) (.ext .ReturnIndexedPlayingTrackInfo) (n := 7) rfl (by simp)
    (by unfold Switches; decide +kernel) (by unfold Switches; decide +kernel) (by simp [hw]) fun v hv => ?_
  have hv' : v.1 = ty := dec_first hv
  obtain ⟨ty', track, chapter, u⟩ := v
  simp only at hv'
  subst hv'
  refine ⟨(ty', extTrackInfo ty', ()), { c with
    out := c.out ++ [⟨(TypeId.ext .ReturnIndexedPlayingTrackInfo).id, trx, .ptr (.ext .ReturnIndexedPlayingTrackInfo) (ty', extTrackInfo ty', ())⟩] },
    ?_, rfl, rfl, ?_⟩
  · rw [handlePacket_ext]
    simp only [handleExtRemote, respond_eq]
  · simp only [encodePayload, TypeId.marshalBinary, h2]

/-- C69. An info the tables do not have is not answered. -/
theorem C69_unknown_info {σ : Type} {D : Device σ} {clock : Clock} {cmd : Command} {c c' : Ctx σ} {new : List Command}
    (hr : Received cmd) (h : Handles D clock cmd c c' new) (ty : UInt8)
    (hp : (∃ u, cmd.payload = .ptr (.disp .GetiPodStateInfo) (ty, u) ∧ ∀ b, ¬ StateInfo (clock c.ticks) ty b) ∨
      (∃ v, cmd.payload = .ptr (.disp .GetIndexedPlayingTrackInfo) (ty, v) ∧ ∀ b, ¬ TrackInfo ty b)) :
    new = [] ∧ c' = c := by
  have hc : c' = c := by
    rcases hp with ⟨u, hp, hn⟩ | ⟨u, hp, hn⟩
    · have hl : cmd.id = (TypeId.disp .GetiPodStateInfo).id := (received_wf hr).2 _ _ hp
      have h1 := h.1
      obtain ⟨id, trx, p⟩ := cmd
      simp only at hl hp
      subst hl hp
      rw [handlePacket_disp] at h1
      have hx : dispStateInfo ty (clock c.ticks) = none := by
        cases hd : dispStateInfo ty (clock c.ticks) with
        | none => rfl
        | some i =>
          exfalso
          have hty : ty.toNat < 256 := ty.toNat_lt
          have : ∃ b, StateInfo (clock c.ticks) ty b := by
            have h16 : ty.toNat ≤ 16 ∧ ty.toNat ≠ 10 := (dispStateInfo_some hd).1
            have : ty = UInt8.ofNat ty.toNat := by simp
            rw [this]
            obtain ⟨h1, h2⟩ := h16
            generalize ty.toNat = n at h1 h2
            match n with
            | 0 => exact ⟨_, .position⟩
            | 1 => exact ⟨_, .track⟩
            | 2 => exact ⟨_, .chapter⟩
            | 3 => exact ⟨_, .playing⟩
            | 4 => exact ⟨_, .volume⟩
            | 5 => exact ⟨_, .power⟩
            | 6 => exact ⟨_, .equalizer⟩
            | 7 => exact ⟨_, .shuffle⟩
            | 8 => exact ⟨_, .repeating⟩
            | 9 => exact ⟨_, .time (beEnc 2 (clock c.ticks).year.toNat) ⟨beEnc_length _ _, by
                rw [beVal_eq, beDec_beEnc]; exact Nat.mod_eq_of_lt (clock c.ticks).year.toNat_lt⟩⟩
            | 11 => exact ⟨_, .backlight⟩
            | 12 => exact ⟨_, .hold⟩
            | 13 => exact ⟨_, .soundCheck⟩
            | 14 => exact ⟨_, .speed⟩
            | 15 => exact ⟨_, .seconds⟩
            | 16 => exact ⟨_, .volume2⟩
            | n + 17 => omega
          obtain ⟨b, hb⟩ := this
          exact hn b hb
      simp only [handleDispRemote, hx] at h1
      cases h1; rfl
    · have hl : cmd.id = (TypeId.disp .GetIndexedPlayingTrackInfo).id := (received_wf hr).2 _ _ hp
      have h1 := h.1
      obtain ⟨id, trx, p⟩ := cmd
      simp only at hl hp
      subst hl hp
      rw [handlePacket_disp] at h1
      have hx : dispTrackInfo ty = none := by
        have h0 : ty.toNat ≠ 0 := fun e => hn _ (by rw [show ty = 0x00 from UInt8.toNat_inj.1 e]; exact .caps)
        have h8 : ty.toNat ≠ 8 := fun e => hn _ (by rw [show ty = 0x08 from UInt8.toNat_inj.1 e]; exact .artworkCount)
        have h9 : 8 < ty.toNat := by
          refine Classical.byContradiction fun e => hn [] (.text ty (by omega) (by omega))
        unfold dispTrackInfo
        split <;> first | omega | rfl
      simp only [handleDispRemote, hx] at h1
      cases h1; rfl
  subst hc
  exact ⟨out0 h.2, rfl⟩

/-- The title is asked, with and without a transaction. -/
example {σ : Type} {D : Device σ} {clock : Clock} {c : Ctx σ} (ty : UInt8) (b b' : Bytes) (h : TrackInfo ty b) (h' : ExtTrackInfo ty b') :
    AnsweredBy D clock c true (packetOf 0x03 0x12 (some 9) [ty, 0, 0, 0, 1, 0, 0]) (packetOf 0x03 0x13 (some 9) (ty :: b)) ∧
    AnsweredBy D clock c false (packetOf 0x04 0x0C none [ty, 0, 0, 0, 1, 0, 0]) (packetOf 0x04 0x0D none (ty :: b')) :=
  ⟨C69_track_info ty b h [0, 0, 0, 1, 0, 0] rfl true (some 9) (fun _ => rfl),
    C69_ext_track_info ty b' h' [0, 0, 0, 1, 0, 0] rfl false none nofun⟩

/-- A message of variable size in, one message out; transactions are used iff they are on. -/
theorem var_exchange {σ : Type} {D : Device σ} {clock : Clock} {c : Ctx σ} {mode : Bool} {trx : Option UInt16}
    (hm : trx.isSome = mode) (t t' : TypeId) (hs : t.size = none) (hsw : ¬ Switches t) (hsw' : ¬ Switches t') {body : Bytes}
    {v : t.Val} (hd : decodePayload t body = .ret (.ok v)) {reply : Bytes} {v' : t'.Val}
    (hh : handlePacket D clock ⟨t.id, trx, .ptr t v⟩ c = .ret { c with out := c.out ++ [⟨t'.id, trx, .ptr t' v'⟩] })
    (he : encodePayload (.ptr t' v') = .ok reply) :
    AnsweredBy D clock c mode (packetOf t.lingo t.cmd trx body) (packetOf t'.lingo t'.cmd trx reply) := by
  refine ⟨⟨t.id, trx, .ptr t v⟩, ?_, ?_⟩
  · have := unmarshalCmd_built mode t trx body v (by rw [lookup_var hs, no_switch hsw, hm]) hd
    rw [no_switch hsw, trxBytes_eq] at this
    exact this
  · rintro c' new ⟨e1, e2⟩
    rw [hh] at e1
    cases e1
    refine ⟨rfl, _, out1 e2, ?_⟩
    rw [marshalCmd_eq]
    simp only [no_switch hsw', lingoID_id, cmdID_id, he]
    have : sentTrx mode trx = trx := by
      unfold sentTrx
      cases trx with
      | none => simp
      | some _ => simp at hm; simp [← hm]
    rw [this, trxBytes_eq]
    rfl

/-- C69. Every accessory signature is accepted. -/
theorem C69_signature_accepted {σ : Type} {D : Device σ} {clock : Clock} {c : Ctx σ} (signature : Bytes) (mode : Bool)
    (trx : Option UInt16) (hm : trx.isSome = mode) :
    AnsweredBy D clock c mode (packetOf 0x00 0x18 trx signature) (packetOf 0x00 0x19 trx [0x00]) := by
  refine var_exchange hm (.gen .RetDevAuthenticationSignature) (.gen .AckDevAuthenticationStatus) rfl
    (by unfold Switches; decide +kernel) (by unfold Switches; decide +kernel) (v := (signature, ())) rfl (v' := (0x00, ())) ?_ rfl
  rw [handlePacket_gen _ _ _ _ _ _ rfl]
  simp only [handleGeneral, respond_eq]

example {σ : Type} (D : Device σ) (clock : Clock) (c : Ctx σ) :
    AnsweredBy D clock c true (packetOf 0x00 0x18 (some 3) [1, 2]) (packetOf 0x00 0x19 (some 3) [0x00]) :=
  C69_signature_accepted [1, 2] true (some 3) rfl

/-- C69. The device's own signature is the challenge it got. -/
theorem C69_signature_echo {σ : Type} {D : Device σ} {clock : Clock} {c : Ctx σ} (challenge : Bytes) (hc : challenge.length = 20)
    (counter : UInt8) (mode : Bool) (trx : Option UInt16) (hm : trx.isSome = true → mode = true) :
    AnsweredBy D clock c mode (packetOf 0x00 0x1D trx (challenge ++ [counter])) (packetOf 0x00 0x1E trx challenge) := by
  refine exchange hm (.gen .GetiPodAuthenticationSignature) (.gen .RetiPodAuthenticationSignature) (n := 21) rfl (by simp)
    (by unfold Switches; decide +kernel) (by unfold Switches; decide +kernel) (by simp [hc]) fun v hv => ?_
  have hv' : v = (⟨challenge, hc⟩, counter, ()) := by
    have h2 : decStruct (TypeId.gen .GetiPodAuthenticationSignature).schema (challenge ++ [counter]) =
        some (⟨challenge, hc⟩, counter, ()) := by
      have := decStruct_encStruct (fs := (TypeId.gen .GetiPodAuthenticationSignature).schema) (n := 21) rfl
        (⟨challenge, hc⟩, counter, ()) []
      simpa [encStruct, FTy.enc] using this
    rw [h2] at hv
    exact (Option.some.inj hv).symm
  subst hv'
  refine ⟨(⟨challenge, hc⟩, ()), { c with out := c.out ++ [⟨(TypeId.gen .RetiPodAuthenticationSignature).id, trx,
    .ptr (.gen .RetiPodAuthenticationSignature) (⟨challenge, hc⟩, ())⟩] }, ?_, rfl, rfl, ?_⟩
  · rw [handlePacket_gen _ _ _ _ _ _ rfl]
    simp only [handleGeneral, respond_eq]
  · rw [encodePayload_fixed (n := 20) rfl]
    simp [encStruct, FTy.enc]

example {σ : Type} (D : Device σ) (clock : Clock) (c : Ctx σ) :
    AnsweredBy D clock c true (packetOf 0x00 0x1D none (List.replicate 20 5 ++ [1])) (packetOf 0x00 0x1E none (List.replicate 20 5)) :=
  C69_signature_echo (List.replicate 20 5) rfl 1 true none (by simp)

/-- C69. Whatever sample rates the accessory has, it gets 44100 Hz without sound check or volume adjustment. -/
theorem C69_sample_rate {σ : Type} {D : Device σ} {clock : Clock} {c : Ctx σ} (rates : Bytes) (mode : Bool)
    (trx : Option UInt16) (hm : trx.isSome = mode) :
    AnsweredBy D clock c mode (packetOf 0x0A 0x03 trx rates)
      (packetOf 0x0A 0x04 trx [0x00, 0x00, 0xAC, 0x44, 0, 0, 0, 0, 0, 0, 0, 0]) := by
  refine var_exchange hm (.aud .RetAccSampleRateCaps) (.aud .TrackNewAudioAttributes) rfl
    (by unfold Switches; decide +kernel) (by unfold Switches; decide +kernel) (v := (unmarshalRates rates, ())) rfl
    (v' := (44100, 0, 0, ())) ?_ rfl
  have : LingoCmdID.lingoID (TypeId.aud .RetAccSampleRateCaps).id = 0x0A := lingoID_id _
  simp only [handlePacket, this]
  exact respond_eq _ _ _ _

example {σ : Type} (D : Device σ) (clock : Clock) (c : Ctx σ) : AnsweredBy D clock c false (packetOf 0x0A 0x03 none [0, 0, 0xAC, 0x44])
    (packetOf 0x0A 0x04 none [0x00, 0x00, 0xAC, 0x44, 0, 0, 0, 0, 0, 0, 0, 0]) :=
  C69_sample_rate [0, 0, 0xAC, 0x44] false none rfl

/-- The battery level is asked with transaction 7. -/
example {σ : Type} {D : Device σ} {clock : Clock} {c : Ctx σ} :
    AnsweredBy D clock c true [0x03, 0x1A, 0x00, 0x07] [0x03, 0x1B, 0x00, 0x07, 0x01, 0xFF] :=
  C69_constant_replies ⟨0x03, 0x1A, 0, 0x1B, [0x01, 0xFF]⟩ (by simp [constantReplies]) [] rfl true (some 7) (by simp)

example : StateInfo ⟨2024, 2, 29, 12, 30⟩ 0x09 [0x07, 0xE8, 2, 29, 12, 30] :=
  .time [0x07, 0xE8] ⟨rfl, by decide⟩

end Props
