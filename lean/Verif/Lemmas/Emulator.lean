import Verif.Spec.Emulator
import Verif.Lemmas.Handlers
import Verif.Lemmas.Panic

/-! The emulated iPod of the model against the one of the specification. -/

namespace Ipod
open Go Spec

/-- What is to be known about the server. -/
def podOf (m : Bool) (c : Ctx DevGeneral) : Pod := ⟨m, c.dev.uimode, c.counter.toUInt16, c.ticks⟩

/-- A command to be sent. -/
def sayOf (x : Command) : Say :=
  ⟨LingoCmdID.lingoID x.id, LingoCmdID.cmdID x.id, x.trx, (encodePayload x.payload).toOption⟩

/-- A handler does what the specification says. -/
def Matches (m : Bool) (c : Ctx DevGeneral) (o : Out (Ctx DevGeneral)) (x : Option (Pod × List Say)) : Prop :=
  ∃ c' new, o = .ret c' ∧ c'.out = c.out ++ new ∧ x = some (podOf m c', new.map sayOf)

theorem matches_silent {m : Bool} {c : Ctx DevGeneral} {o : Out (Ctx DevGeneral)} {x : Option (Pod × List Say)}
    (ho : o = .ret c) (hx : x = some (podOf m c, [])) : Matches m c o x := ⟨c, [], ho, by simp, hx⟩

theorem sayOf_id (t : TypeId) (trx : Option UInt16) (p : Payload) :
    sayOf ⟨t.id, trx, p⟩ = ⟨t.lingo, t.cmd, trx, (encodePayload p).toOption⟩ := by
  simp only [sayOf, lingoID_id, cmdID_id]

theorem matches_respond {m : Bool} {c : Ctx DevGeneral} {req : Command} {t : TypeId} {v : t.Val} {x : Option (Pod × List Say)}
    (hx : x = some (podOf m c, [⟨t.lingo, t.cmd, req.trx, (encodePayload (.ptr t v)).toOption⟩])) :
    Matches m c (c.respond req t v) x :=
  ⟨_, _, respond_eq .., rfl, by rw [hx, List.map_cons, sayOf_id]; rfl⟩

theorem matches_body {m : Bool} {c : Ctx DevGeneral} {req : Command} {t : TypeId} {v : t.Val} {x : Option (Pod × List Say)}
    {body : Bytes} (hb : (encodePayload (.ptr t v)).toOption = some body)
    (hx : x = some (podOf m c, [⟨t.lingo, t.cmd, req.trx, some body⟩])) : Matches m c (c.respond req t v) x :=
  matches_respond (by rw [hb]; exact hx)

theorem str_name : stringToBytes (str "ipod-gadget") =
    [0x69, 0x70, 0x6F, 0x64, 0x2D, 0x67, 0x61, 0x64, 0x67, 0x65, 0x74, 0x00] := by decide +kernel
theorem str_serial : stringToBytes (str "abcd1234") = [0x61, 0x62, 0x63, 0x64, 0x31, 0x32, 0x33, 0x34, 0x00] := by decide +kernel
theorem str_model : stringToBytes (str "MC676") = [0x4D, 0x43, 0x36, 0x37, 0x36, 0x00] := by decide +kernel
theorem str_title : stringToBytes (str "title") = [0x74, 0x69, 0x74, 0x6C, 0x65, 0x00] := by decide +kernel
theorem str_artist : stringToBytes (str "artist") = [0x61, 0x72, 0x74, 0x69, 0x73, 0x74, 0x00] := by decide +kernel
theorem str_album : stringToBytes (str "album") = [0x61, 0x6C, 0x62, 0x75, 0x6D, 0x00] := by decide +kernel

theorem size_none {t : TypeId} {n : Nat} (h : t.size = none) (hn : t.size = some n) : False := by rw [h] at hn; cases hn

theorem matches_ack {m : Bool} {c : Ctx DevGeneral} {t : TypeId} {trx : Option UInt16} {p : Payload} {status : UInt8}
    {x : Option (Pod × List Say)}
    (hx : x = some (podOf m c, [⟨0x00, 0x02, trx, some [status, t.cmd.toUInt8]⟩])) :
    Matches m c (c.ack ⟨t.id, trx, p⟩ status) x := by
  simp only [Ctx.ack, cmdID_id]
  exact matches_respond hx

theorem matches_ackSuccess {m : Bool} {c : Ctx DevGeneral} {t : TypeId} {trx : Option UInt16} {p : Payload}
    {x : Option (Pod × List Say)}
    (hx : x = some (podOf m c, [⟨0x00, 0x02, trx, some [0x00, t.cmd.toUInt8]⟩])) :
    Matches m c (c.ackSuccess ⟨t.id, trx, p⟩) x := by
  simp only [Ctx.ackSuccess, cmdID_id]
  exact matches_respond hx

theorem matches_dispAck {m : Bool} {c : Ctx DevGeneral} {t : TypeId} {trx : Option UInt16} {p : Payload}
    {x : Option (Pod × List Say)}
    (hx : x = some (podOf m c, [⟨0x03, 0x00, trx, some [0x00, t.cmd.toUInt8]⟩])) :
    Matches m c (c.dispAck ⟨t.id, trx, p⟩) x := by
  simp only [Ctx.dispAck, cmdID_id]
  exact matches_respond hx

theorem extAckBytes (status : UInt8) (k : UInt16) :
    encodePayload (.ptr (.ext .ACK) (status, k, ())) = .ok (status :: FTy.enc .u16 k) := rfl

theorem matches_extAck {m : Bool} {c : Ctx DevGeneral} {t : TypeId} {trx : Option UInt16} {p : Payload}
    {x : Option (Pod × List Say)}
    (hx : x = some (podOf m c, [⟨0x04, 0x01, trx, some (0x00 :: FTy.enc .u16 t.cmd)⟩])) :
    Matches m c (c.extAck ⟨t.id, trx, p⟩) x := by
  simp only [Ctx.extAck, cmdID_id]
  exact matches_respond hx

theorem matches_extFail {m : Bool} {c : Ctx DevGeneral} {t : TypeId} {trx : Option UInt16} {p : Payload}
    {x : Option (Pod × List Say)}
    (hx : x = some (podOf m c, [⟨0x04, 0x01, trx, some (0x02 :: FTy.enc .u16 t.cmd)⟩])) :
    Matches m c (c.extFail ⟨t.id, trx, p⟩) x := by
  simp only [Ctx.extFail, cmdID_id]
  exact matches_respond hx

theorem decStruct_u8 {fs : List FTy} {b : Bytes} {v : SVal (.u8 :: fs)} (h : decStruct (.u8 :: fs) b = some v) :
    ∃ b', b = v.1 :: b' ∧ decStruct fs b' = some v.2 := by
  match b with
  | [] => simp [decStruct, FTy.size, FTy.dec] at h
  | x :: b' =>
    simp only [decStruct, FTy.size, FTy.dec, List.take_succ_cons, List.take_zero, List.drop_succ_cons, List.drop_zero,
      Option.bind_eq_bind, Option.bind_some] at h
    cases hd : decStruct fs b' with
    | none => rw [hd] at h; cases h
    | some w => rw [hd] at h; cases h; exact ⟨b', rfl, hd⟩

theorem extInfo_bytes (ty : UInt8) (b : Bytes) :
    (encodePayload (.ptr (.ext .ReturnIndexedPlayingTrackInfo) (ty, extTrackInfo ty, ()))).toOption =
      some (extTrack (ty :: b)) := by
  unfold extTrackInfo
  by_cases h0 : ty = 0x00
  · subst h0; rfl
  rw [if_neg h0]
  by_cases h3 : ty = 0x03 ∨ ty = 0x04
  · rw [if_pos h3]
    rcases h3 with rfl | rfl <;> rfl
  rw [if_neg h3]
  by_cases h7 : ty = 0x07
  · subst h7; rfl
  rw [if_neg h7]
  simp only [extTrack, List.take_succ_cons, List.take_zero, List.cons.injEq, and_true]
  rw [if_neg h0, if_neg h3, if_neg h7]
  rfl

theorem small_u8 {ty : UInt8} {n : Nat} (_h : ty.toNat ≤ n) : ty = UInt8.ofNat ty.toNat := by simp

theorem dispState_info (ty : UInt8) (now : Time) :
    stateInfo now ty = (dispStateInfo ty now).map fun info => writeIgnoring info.encode := by
  by_cases h : ty.toNat ≤ 16
  · have h' := small_u8 h
    rcases (by omega : ty.toNat = 0 ∨ ty.toNat = 1 ∨ ty.toNat = 2 ∨ ty.toNat = 3 ∨ ty.toNat = 4 ∨ ty.toNat = 5 ∨ ty.toNat = 6 ∨
      ty.toNat = 7 ∨ ty.toNat = 8 ∨ ty.toNat = 9 ∨ ty.toNat = 10 ∨ ty.toNat = 11 ∨ ty.toNat = 12 ∨ ty.toNat = 13 ∨ ty.toNat = 14 ∨
      ty.toNat = 15 ∨ ty.toNat = 16) with e | e | e | e | e | e | e | e | e | e | e | e | e | e | e | e | e
    all_goals
      rw [e] at h'
      subst h'
    all_goals first
      | rfl
      | skip
    have := now.year.toNat_lt
    show some _ = some _
    simp only [DispState.encode, binWrite, structSize, FTy.size, encStruct, FTy.enc, beEnc, writeIgnoring]
    simp
    apply UInt8.toNat.inj
    simp
  · have h1 : dispStateInfo ty now = none := by
      unfold dispStateInfo
      split <;> first | omega | rfl
    have h2 : ∀ k : UInt8, k.toNat ≤ 16 → ty ≠ k := by rintro k hk rfl; exact h hk
    simp only [h1, stateInfo, Option.map_none]
    repeat rw [if_neg (h2 _ (by decide))]

theorem enc_maxPayload : FTy.enc .u16 (65535 : UInt16) = [0xFF, 0xFF] := by decide +kernel
theorem enc_noEvents : FTy.enc .u64 (0 : UInt64) = [0, 0, 0, 0, 0, 0, 0, 0] := by decide +kernel

theorem counter_low (n : UInt32) : (n + 1).toUInt16 = n.toUInt16 + 1 := by
  apply UInt16.toNat.inj
  simp

theorem identify_device {b : Bytes} (hb : b.length = 12) {ls os d : UInt32} {u : Unit}
    (hv : decStruct [.u32, .u32, .u32] b = some (ls, os, d, u)) : d = 0 ↔ (b.drop 8).all (· == 0) = true := by
  match b, hb with
  | [b0, b1, b2, b3, b4, b5, b6, b7, x, y, z, w], _ =>
    simp only [decStruct, FTy.size, FTy.dec, Option.bind_eq_bind, Option.bind_some, List.take_succ_cons, List.take_zero,
      List.drop_succ_cons, List.drop_zero, List.length_cons, List.length_nil, if_true, Nat.reduceAdd, Option.some.injEq,
      Prod.mk.injEq, and_true] at hv
    have hd := hv.2.2
    subst hd
    have hx := x.toNat_lt
    have hy := y.toNat_lt
    have hz := z.toNat_lt
    have hw := w.toNat_lt
    have e : beDec [x, y, z, w] = x.toNat * 16777216 + y.toNat * 65536 + z.toNat * 256 + w.toNat := by
      simp only [beDec, List.foldl]
      omega
    have hz0 : ∀ a : UInt8, a = 0 ↔ a.toNat = 0 := fun a => ⟨fun h => by rw [h]; rfl, fun h => UInt8.toNat.inj h⟩
    have h1 : UInt32.ofNat (beDec [x, y, z, w]) = 0 ↔ beDec [x, y, z, w] = 0 := by
      constructor
      · intro h
        have := congrArg UInt32.toNat h
        simp only [UInt32.toNat_ofNat', UInt32.toNat_ofNat] at this
        omega
      · intro h; rw [h]; rfl
    rw [h1, e]
    simp only [List.drop_succ_cons, List.drop_zero, List.all_cons, List.all_nil, Bool.and_true, Bool.and_eq_true, beq_iff_eq, hz0]
    omega

theorem ext_reacts (m : Bool) (c : Ctx DevGeneral) (t : Option UInt16) (now : Time) (g : ExtT) (v : (TypeId.ext g).Val)
    (n : Nat) (hn : (TypeId.ext g).size = some n) (b : Bytes) (hv : decStruct (TypeId.ext g).schema b = some v) (hb : b.length = n) :
    Matches m c (handleExtRemote ⟨(TypeId.ext g).id, t, .ptr (.ext g) v⟩ c)
      (reactionTo 0x04 g.cmdID (podOf m c) now t b) := by
  cases g
  all_goals try exact (size_none rfl hn).elim
  all_goals try exact matches_silent rfl rfl
  all_goals try exact matches_respond rfl
  all_goals try exact matches_extAck rfl
  all_goals try exact matches_extFail rfl
  case GetIndexedPlayingTrackInfo =>
    obtain ⟨ty, v⟩ := v
    obtain ⟨b', rfl, -⟩ := decStruct_u8 hv
    refine matches_respond ?_
    show some _ = some _
    rw [extInfo_bytes]
    rfl
  case GetIndexedPlayingTrackTitle =>
    exact matches_body (congrArg some str_title) rfl
  case GetIndexedPlayingTrackArtistName =>
    exact matches_body (congrArg some str_artist) rfl
  case GetIndexedPlayingTrackAlbumName =>
    exact matches_body (congrArg some str_album) rfl

theorem aud_reacts (m : Bool) (c : Ctx DevGeneral) (t : Option UInt16) (now : Time) (g : AudT) (v : (TypeId.aud g).Val)
    (n : Nat) (hn : (TypeId.aud g).size = some n) (b : Bytes)  :
    Matches m c (handleAudio ⟨(TypeId.aud g).id, t, .ptr (.aud g) v⟩ c)
      (reactionTo 0x0A g.cmdID (podOf m c) now t b) := by
  cases g
  all_goals try exact (size_none rfl hn).elim
  all_goals try exact matches_silent rfl rfl

theorem disp_reacts (m : Bool) (c : Ctx DevGeneral) (t : Option UInt16) (clock : Clock) (g : DispT) (v : (TypeId.disp g).Val)
    (n : Nat) (hn : (TypeId.disp g).size = some n) (b : Bytes) (hv : decStruct (TypeId.disp g).schema b = some v) (hb : b.length = n) :
    Matches m c (handleDispRemote clock ⟨(TypeId.disp g).id, t, .ptr (.disp g) v⟩ c)
      (reactionTo 0x03 g.cmdID (podOf m c) (clock c.ticks) t b) := by
  cases g
  all_goals try exact (size_none rfl hn).elim
  all_goals try exact matches_silent rfl rfl
  all_goals try exact matches_respond rfl
  all_goals try exact matches_dispAck rfl
  case GetiPodStateInfo =>
    obtain ⟨ty, v⟩ := v
    obtain ⟨b', rfl, -⟩ := decStruct_u8 hv
    have hb' : b' = [] := by
      cases hn
      simpa using hb
    subst hb'
    show Matches m c (match dispStateInfo ty (clock c.ticks) with
      | none => .ret c
      | some info => (if ty = 9 then { c with ticks := c.ticks + 1 } else c).respond _ (.disp .RetiPodStateInfo) (ty, info, ()))
      (tellsState (podOf m c) (clock c.ticks) t [ty])
    rw [tellsState, dispState_info]
    cases hd : dispStateInfo ty (clock c.ticks) with
    | none =>
      exact matches_silent rfl rfl
    | some info =>
      simp only [Option.map_some]
      by_cases h9 : ty = 9
      · rw [if_pos h9, if_pos h9]
        refine ⟨_, _, respond_eq .., rfl, ?_⟩
        rw [List.map_cons, sayOf_id]
        rfl
      · rw [if_neg h9, if_neg h9]
        exact matches_respond rfl
  case GetIndexedPlayingTrackInfo =>
    obtain ⟨ty, v⟩ := v
    obtain ⟨b', rfl, -⟩ := decStruct_u8 hv
    show Matches m c (match dispTrackInfo ty with
      | none => .ret c
      | some info => c.respond _ (.disp .RetIndexedPlayingTrackInfo) (ty, info, ()))
      (tellsTrack (podOf m c) (clock c.ticks) t (ty :: b'))
    by_cases h : ty.toNat ≤ 8
    · have h' := small_u8 (n := 8) h
      rcases (by omega : ty.toNat = 0 ∨ ty.toNat = 1 ∨ ty.toNat = 2 ∨ ty.toNat = 3 ∨ ty.toNat = 4 ∨ ty.toNat = 5 ∨ ty.toNat = 6 ∨
        ty.toNat = 7 ∨ ty.toNat = 8) with e | e | e | e | e | e | e | e | e
      all_goals
        rw [e] at h'
        subst h'
        exact matches_respond rfl
    · have hd : dispTrackInfo ty = none := by
        unfold dispTrackInfo
        split <;> first | omega | rfl
      rw [hd]
      refine matches_silent rfl ?_
      have h8 : ty ≠ 0x08 := by rintro rfl; exact h (by decide)
      have h0 : ty ≠ 0x00 := by rintro rfl; exact h (by decide)
      rw [tellsTrack, if_neg h0, if_neg (by omega), if_neg h8]

theorem gen_reacts (m : Bool) (c : Ctx DevGeneral) (t : Option UInt16) (now : Time) (g : GenT) (v : (TypeId.gen g).Val)
    (n : Nat) (hn : (TypeId.gen g).size = some n) (b : Bytes) (hv : decStruct (TypeId.gen g).schema b = some v) (hb : b.length = n) :
    Matches m c (handleGeneral devGeneral ⟨(TypeId.gen g).id, t, .ptr (.gen g) v⟩ c)
      (reactionTo 0x00 g.cmdID (podOf m c) now t b) := by
  cases g
  all_goals try exact (size_none rfl hn).elim
  all_goals try exact matches_silent rfl rfl
  all_goals try exact matches_respond rfl
  all_goals try exact matches_ackSuccess rfl
  case RequestRemoteUIMode =>
    refine matches_body (body := [if c.dev.uimode = 0x01 then 0x01 else 0x00]) ?_ rfl
    show some [boolToByte (decide (c.dev.uimode = 0x01))] = _
    unfold boolToByte
    by_cases h : c.dev.uimode = 0x01 <;> simp [h]
  case EnterRemoteUIMode =>
    show Matches m c (if c.dev.uimode = 0x01 then _ else _) (turnsUI 0x05 0x01 (· == 0x01) (podOf m c) now t b)
    unfold turnsUI
    by_cases h : c.dev.uimode = 0x01
    · rw [if_pos h, if_pos (show ((podOf m c).ui == 0x01) = true from beq_iff_eq.2 h)]
      exact matches_ackSuccess rfl
    · rw [if_neg h, if_neg (show ¬ ((podOf m c).ui == 0x01) = true from fun e => h (beq_iff_eq.1 e))]
      simp only [Ctx.ackPending, Ctx.ackSuccess, respond_eq, out_ret_bind, cmdID_id]
      refine ⟨_, [_, _], rfl, by simp only [List.append_assoc]; rfl, ?_⟩
      simp only [List.map_cons, List.map_nil, sayOf_id]
      rfl
  case ExitRemoteUIMode =>
    show Matches m c (if c.dev.uimode ≠ 0x01 then _ else _) (turnsUI 0x06 0x00 (· != 0x01) (podOf m c) now t b)
    unfold turnsUI
    by_cases h : c.dev.uimode = 0x01
    · rw [if_neg (fun e => e h), if_neg (show ¬ ((podOf m c).ui != 0x01) = true from fun e => bne_iff_ne.1 e h)]
      simp only [Ctx.ackPending, Ctx.ackSuccess, respond_eq, out_ret_bind, cmdID_id]
      refine ⟨_, [_, _], rfl, by simp only [List.append_assoc]; rfl, ?_⟩
      simp only [List.map_cons, List.map_nil, sayOf_id]
      rfl
    · rw [if_pos h, if_pos (show ((podOf m c).ui != 0x01) = true from bne_iff_ne.2 h)]
      exact matches_ackSuccess rfl
  case RequestiPodName => exact matches_body (congrArg some str_name) rfl
  case RequestiPodSerialNum => exact matches_body (congrArg some str_serial) rfl
  case RequestiPodModelNum =>
    exact matches_body (congrArg (fun s : Bytes => some ([0x00, 0x11, 0x13, 0x49] ++ s)) str_model) rfl
  case RequestLingoProtocolVersion =>
    obtain ⟨l, v⟩ := v
    obtain ⟨b', rfl, -⟩ := decStruct_u8 hv
    have hb' : b' = [] := by
      cases hn
      simpa using hb
    subst hb'
    refine matches_body (body := l :: podVersion l) ?_ rfl
    show some [l, (devGeneral.lingoProtocolVersion c.dev l).1, (devGeneral.lingoProtocolVersion c.dev l).2] = _
    simp only [devGeneral, podVersion]
    repeat' split
    all_goals rfl
  case RequestTransportMaxPayloadSize => exact matches_body (congrArg some enc_maxPayload) rfl
  case GetEventNotification => exact matches_body (congrArg some enc_noEvents) rfl
  case GetSupportedEventNotification => exact matches_body (congrArg some enc_noEvents) rfl
  case IdentifyDeviceLingoes =>
    cases hn
    obtain ⟨ls, os, d, _⟩ := v
    have hd := identify_device hb hv
    show Matches m c (c.ackSuccess _ >>= fun c => if d ≠ 0x00 then _ else .ret c) (identifies (podOf m c) now t b)
    unfold identifies
    simp only [Ctx.ackSuccess, respond_eq, out_ret_bind, cmdID_id]
    by_cases h : d = 0
    · rw [if_neg (fun e => e h), if_pos (hd.1 h)]
      refine ⟨_, _, rfl, rfl, ?_⟩
      rw [List.map_cons, sayOf_id]
      rfl
    · rw [if_pos h, if_neg (fun e => h (hd.2 e))]
      refine ⟨_, [_, _], rfl, by simp only [List.append_assoc]; rfl, ?_⟩
      simp only [List.map_cons, List.map_nil, sayOf_id]
      rfl
  case GetiPodAuthenticationSignature =>
    cases hn
    obtain ⟨ch, v⟩ := v
    have hc : ch.1 = b.take 20 := by
      simp only [TypeId.schema, GenT.schema, decStruct, FTy.size, FTy.dec, Option.bind_eq_bind, Option.bind_some] at hv
      rw [dif_pos (by simp [hb])] at hv
      simp only [Option.bind_some] at hv
      obtain ⟨w, -, hw⟩ := Option.bind_eq_some_iff.1 hv
      cases hw
      rfl
    refine matches_body (body := b.take 20) ?_ rfl
    rw [← hc]
    show some (ch.1 ++ []) = _
    rw [List.append_nil]
  case GetiPodPreferences =>
    obtain ⟨l, v⟩ := v
    obtain ⟨b', rfl, -⟩ := decStruct_u8 hv
    have hb' : b' = [] := by
      cases hn
      simpa using hb
    subst hb'
    exact matches_respond rfl
  case EndIDPS =>
    obtain ⟨l, v⟩ := v
    obtain ⟨b', rfl, -⟩ := decStruct_u8 hv
    have hb' : b' = [] := by
      cases hn
      simpa using hb
    subst hb'
    show Matches m c (if l = 0x00 then _ else if l = 0x01 then _ else if l = 0x02 then _ else .ret c) (endsIDPS (podOf m c) now t [l])
    by_cases h0 : l = 0x00
    · subst h0
      rw [if_pos rfl]
      simp only [respond_eq, send_eq, out_ret_bind]
      refine ⟨_, [_, _], rfl, by simp only [List.append_assoc]; rfl, ?_⟩
      simp only [List.map_cons, List.map_nil, sayOf_id, endsIDPS, podOf, counter_low]
      rfl
    rw [if_neg h0]
    by_cases h1 : l = 0x01
    · subst h1
      exact matches_respond rfl
    rw [if_neg h1]
    by_cases h2 : l = 0x02
    · subst h2
      exact matches_respond rfl
    rw [if_neg h2]
    refine matches_silent rfl ?_
    unfold endsIDPS
    split
    · rename_i h; cases h; exact absurd rfl h0
    · rename_i h; cases h; exact absurd rfl h1
    · rename_i h; cases h; exact absurd rfl h2
    · rfl
  case GetiPodOptionsForLingo =>
    obtain ⟨l, v⟩ := v
    obtain ⟨b', rfl, -⟩ := decStruct_u8 hv
    have hb' : b' = [] := by
      cases hn
      simpa using hb
    subst hb'
    refine matches_body (body := l :: podOptions l) ?_ rfl
    show some (l :: FTy.enc .u64 (devGeneral.lingoOptions c.dev l)) = _
    simp only [devGeneral, podOptions]
    split
    all_goals rfl
  all_goals skip

/-! ### tokens -/

/-- What decoding a token gives is what the specification says. -/
def FateOf (id : TokenID) (o : Out (Except Err FIDToken)) : TokenFate → Prop
  | .dies => o = .panic
  | .bad => ∃ e, o = .ret (.error e)
  | .acked a => ∃ t, o = .ret (.ok t) ∧ (ackFIDTokenValue ⟨id, t⟩).ack = a

theorem fate_read {id : TokenID} {fs : List FTy} {n : Nat} (h : structSize fs = some n) (d : Bytes) (f : SVal fs → FIDToken)
    (ha : ∀ v, (ackFIDTokenValue ⟨id, f v⟩).ack = some [0x00]) : FateOf id (tokenRead fs d f) (ackedFrom n d) := by
  unfold ackedFrom
  by_cases hd : d.length < n
  · rw [if_pos hd]
    exact ⟨_, by rw [tokenRead, binRead_short h hd]⟩
  · rw [if_neg hd]
    obtain ⟨v, hv, _⟩ := binRead_long h (r := d) (by omega)
    exact ⟨f v, by rw [tokenRead, hv], ha v⟩

theorem token_fate (x y : UInt8) (b : Bytes) : FateOf ⟨x, y⟩ (unmarshalToken ⟨x, y⟩ b) (tokenFate x y b) := by
  have hy : ∀ k : UInt8, y = k ↔ y.toNat = k.toNat := fun k => ⟨fun h => by rw [h], fun h => UInt8.toNat.inj h⟩
  unfold unmarshalToken tokenFate
  by_cases h1 : x = 0x01
  · subst h1
    exact fate_read rfl b _ fun _ => rfl
  rw [if_neg h1]
  by_cases h0 : x = 0x00
  · subst h0
    rw [if_pos rfl, if_neg h1, if_neg (fun e => e rfl)]
    simp only [hy]
    split
    · rename_i h
      simp only [h]
      match b with
      | [] => exact ⟨_, rfl⟩
      | n :: r => exact ⟨_, rfl, rfl⟩
    · rename_i h; simp only [h]; exact ⟨_, rfl, rfl⟩
    · rename_i h
      simp only [h]
      match b with
      | [] => exact ⟨_, rfl⟩
      | k :: r =>
        have hr : readOrZero .u8 (0 : UInt8) (k :: r) = (k, r) := rfl
        simp only [Nat.reduceEqDiff, UInt8.reduceToNat, if_false, if_true, unmarshalAccInfo, hr]
        by_cases a1 : k = 1 ∨ k = 6 ∨ k = 7 ∨ k = 8
        · rw [if_pos a1, if_pos (by rcases a1 with h | h | h | h <;> subst h <;> decide)]; exact ⟨_, rfl, rfl⟩
        rw [if_neg a1]
        by_cases a2 : k = 4 ∨ k = 5
        · rw [if_pos a2, if_pos (by rcases a2 with h | h <;> subst h <;> decide)]; exact ⟨_, rfl, rfl⟩
        rw [if_neg a2]
        by_cases a3 : k = 9
        · rw [if_pos a3, if_pos (by subst a3; decide)]; exact ⟨_, rfl, rfl⟩
        rw [if_neg a3]
        by_cases a4 : k = 11 ∨ k = 12
        · rw [if_pos a4, if_pos (by rcases a4 with h | h <;> subst h <;> decide)]; exact ⟨_, rfl, rfl⟩
        rw [if_neg a4, if_neg (by simp only [List.mem_cons, List.not_mem_nil, or_false]; clear hr h1 hy; grind)]; exact ⟨_, rfl⟩
    · rename_i h
      simp only [h]
      match b with
      | [] => exact ⟨_, rfl⟩
      | [_] => exact ⟨_, rfl⟩
      | [_, _] => exact ⟨_, rfl⟩
      | a :: c :: d :: r => exact ⟨_, rfl, rfl⟩
    · rename_i h
      simp only [h]
      match b with
      | [] => exact rfl
      | a :: r => exact ⟨_, rfl, rfl⟩
    · rename_i h; simp only [h]; exact fate_read rfl b _ fun _ => rfl
    · rename_i h; simp only [h]; exact fate_read rfl b _ fun _ => rfl
    · rename_i h; simp only [h]; exact fate_read rfl b _ fun _ => rfl
    · rename_i k0 k1 k2 k3 k4 k5 k7 k8
      rw [if_neg (c := y.toNat = (0 : UInt8).toNat) k0, if_neg (c := y.toNat = (1 : UInt8).toNat) k1,
        if_neg (c := y.toNat = (2 : UInt8).toNat) k2, if_neg (c := y.toNat = (3 : UInt8).toNat) k3,
        if_neg (c := y.toNat = (4 : UInt8).toNat) k4, if_neg (c := y.toNat = (5 : UInt8).toNat) k5,
        if_neg (c := y.toNat = (7 : UInt8).toNat) k7, if_neg (c := y.toNat = (8 : UInt8).toNat) k8]
      exact ⟨_, rfl, rfl⟩
  · rw [if_neg h0, if_neg h1, if_pos h0]
    exact ⟨_, rfl, rfl⟩

/-- What decoding a list of tokens and acknowledging them gives is what the specification says. -/
def FatesOf (n : Nat) (o : Out (Except Err (List FIDTokenValue))) : Option (Option (Option Bytes)) → Prop
  | none => o = .panic
  | some none => ∃ e, o = .ret (.error e)
  | some (some a) =>
    ∃ ts, o = .ret (.ok ts) ∧ ts.length = n ∧ (marshalList marshalAck (ackFIDTokenValues ts)).toOption = a

theorem token_fates (n : Nat) (r : Bytes) : FatesOf n (unmarshalList unmarshalTokenValue n r) (tokenFates n r) := by
  induction n generalizing r with
  | zero => exact ⟨[], rfl, rfl, rfl⟩
  | succ n ih =>
    match r with
    | [] => exact ⟨_, rfl⟩
    | len :: r =>
      rw [unmarshalList, tokenFates]
      match ht : r.take len.toNat with
      | [] => exact ⟨_, rfl⟩
      | [_] => exact ⟨_, rfl⟩
      | x :: y :: b =>
        simp only [unmarshalTokenValue, binRead_2u8]
        have h1 := token_fate x y b
        cases hf : tokenFate x y b with
        | dies => rw [hf] at h1; have h1 : _ = _ := h1; rw [h1]; rfl
        | bad => rw [hf] at h1; obtain ⟨e, h1⟩ := h1; rw [h1]; exact ⟨_, rfl⟩
        | acked a =>
          rw [hf] at h1
          obtain ⟨t, h1, h2⟩ := h1
          rw [h1]
          simp only [Out.bind_ret]
          have h3 := ih (r.drop len.toNat)
          match hg : tokenFates n (r.drop len.toNat) with
          | none => rw [hg] at h3; have h3 : _ = _ := h3; rw [h3]; rfl
          | some none => rw [hg] at h3; obtain ⟨e, h3⟩ := h3; rw [h3]; exact ⟨_, rfl⟩
          | some (some more) =>
            rw [hg] at h3
            obtain ⟨ts, h3, hl, hm⟩ := h3
            rw [h3]
            refine ⟨⟨⟨x, y⟩, t⟩ :: ts, rfl, by simp [hl], ?_⟩
            have hid : (ackFIDTokenValue ⟨⟨x, y⟩, t⟩).id = ⟨x, y⟩ := rfl
            rw [ackFIDTokenValues] at hm
            simp only [ackFIDTokenValues, List.map_cons, marshalList, marshalAck, h2, hid]
            cases a with
            | none => rfl
            | some a =>
              simp only [Option.bind_some]
              cases hq : marshalList marshalAck (ts.map ackFIDTokenValue) with
              | error e => rw [hq] at hm; subst hm; rfl
              | ok q => rw [hq] at hm; subst hm; simp [Except.toOption, UInt8.add_assoc]

/-! ### one message -/

/-- What comes of the rest `r` of a packet, taken as the message `t`. -/
def Does (m : Bool) (c : Ctx DevGeneral) (clock : Clock) (trx : Option UInt16) (t : TypeId) (r : Bytes)
    (x : Option (Pod × List Say)) : Prop :=
  (decodePayload t r = .panic ∧ x = none) ∨
  (∃ e, decodePayload t r = .ret (.error e) ∧ x = some (podOf m c, [])) ∨
  (∃ v, decodePayload t r = .ret (.ok v) ∧ Matches m c (handlePacket devGeneral clock ⟨t.id, trx, .ptr t v⟩ c) x)

theorem handlePacket_gen (clock : Clock) (g : GenT) (trx : Option UInt16) (p : Payload) (c : Ctx DevGeneral)
    (ha : authComplete p = false) :
    handlePacket devGeneral clock ⟨(TypeId.gen g).id, trx, p⟩ c = handleGeneral devGeneral ⟨(TypeId.gen g).id, trx, p⟩ c := by
  simp only [handlePacket, lingoID_id]
  rw [if_pos (by rfl), if_neg (by rw [ha]; decide), Out.bind_ret]

theorem handlePacket_sim (clock : Clock) (g : SimT) (trx : Option UInt16) (p : Payload) (c : Ctx DevGeneral) :
    handlePacket devGeneral clock ⟨(TypeId.sim g).id, trx, p⟩ c = .ret c := by
  simp only [handlePacket, lingoID_id]
  rw [if_neg (by show ¬ (0x02 : UInt8) = 0x00; decide), if_pos (by rfl)]

theorem handlePacket_disp (clock : Clock) (g : DispT) (trx : Option UInt16) (p : Payload) (c : Ctx DevGeneral) :
    handlePacket devGeneral clock ⟨(TypeId.disp g).id, trx, p⟩ c = handleDispRemote clock ⟨(TypeId.disp g).id, trx, p⟩ c := by
  simp only [handlePacket, lingoID_id]
  rw [if_neg (by show ¬ (0x03 : UInt8) = 0x00; decide), if_neg (by show ¬ (0x03 : UInt8) = 0x02; decide), if_pos (by rfl)]

theorem handlePacket_ext (clock : Clock) (g : ExtT) (trx : Option UInt16) (p : Payload) (c : Ctx DevGeneral) :
    handlePacket devGeneral clock ⟨(TypeId.ext g).id, trx, p⟩ c = handleExtRemote ⟨(TypeId.ext g).id, trx, p⟩ c := by
  simp only [handlePacket, lingoID_id]
  rw [if_neg (by show ¬ (0x04 : UInt8) = 0x00; decide), if_neg (by show ¬ (0x04 : UInt8) = 0x02; decide),
    if_neg (by show ¬ (0x04 : UInt8) = 0x03; decide), if_pos (by rfl)]

theorem handlePacket_aud (clock : Clock) (g : AudT) (trx : Option UInt16) (p : Payload) (c : Ctx DevGeneral) :
    handlePacket devGeneral clock ⟨(TypeId.aud g).id, trx, p⟩ c = handleAudio ⟨(TypeId.aud g).id, trx, p⟩ c := by
  simp only [handlePacket, lingoID_id]
  rw [if_neg (by show ¬ (0x0A : UInt8) = 0x00; decide), if_neg (by show ¬ (0x0A : UInt8) = 0x02; decide),
    if_neg (by show ¬ (0x0A : UInt8) = 0x03; decide), if_neg (by show ¬ (0x0A : UInt8) = 0x04; decide), if_pos (by rfl)]

theorem sim_silent (g : SimT) (p : Pod) (now : Time) (t : Option UInt16) (b : Bytes) :
    reactionTo 0x02 g.cmdID p now t b = some (p, []) := by cases g <;> rfl

theorem fixed_reacts (t : TypeId) (n : Nat) (hn : t.size = some n) (m : Bool) (c : Ctx DevGeneral) (clock : Clock)
    (trx : Option UInt16) (b : Bytes) (v : t.Val) (hv : decStruct t.schema b = some v) (hb : b.length = n) :
    Matches m c (handlePacket devGeneral clock ⟨t.id, trx, .ptr t v⟩ c)
      (reactionTo t.lingo t.cmd (podOf m c) (clock c.ticks) trx b) := by
  match t with
  | .gen g =>
    rw [handlePacket_gen]
    · exact gen_reacts m c trx _ g v n hn b hv hb
    · cases g <;> first | rfl | exact (size_none rfl hn).elim
  | .sim g => rw [handlePacket_sim]; exact matches_silent rfl (sim_silent ..)
  | .disp g => rw [handlePacket_disp]; exact disp_reacts m c trx clock g v n hn b hv hb
  | .ext g => rw [handlePacket_ext]; exact ext_reacts m c trx _ g v n hn b hv hb
  | .aud g => rw [handlePacket_aud]; exact aud_reacts m c trx _ g v n hn b

theorem fixed_plain (t : TypeId) (n : Nat) (hn : t.size = some n) (r : Bytes) :
    decodePayload t r = .ret (binRead t.schema r).1 := by
  have h : t.unmarshalBinary r = none := by
    match t with
    | .gen g => cases g <;> first | rfl | exact (size_none rfl hn).elim
    | .sim g => cases g <;> first | rfl | exact (size_none rfl hn).elim
    | .disp g => cases g <;> first | rfl | exact (size_none rfl hn).elim
    | .ext g => cases g <;> first | rfl | exact (size_none rfl hn).elim
    | .aud g => cases g <;> first | rfl | exact (size_none rfl hn).elim
  rw [decodePayload, h]

theorem fixed_does (t : TypeId) (n : Nat) (hn : t.size = some n) (m : Bool) (c : Ctx DevGeneral) (clock : Clock)
    (trx : Option UInt16) (r : Bytes) :
    Does m c clock trx t r
      (if r.length < n then some (podOf m c, []) else
        reactionTo t.lingo t.cmd (podOf m c) (clock c.ticks) trx (r.take n)) := by
  by_cases h : r.length < n
  · rw [if_pos h]
    exact .inr (.inl ⟨_, by rw [fixed_plain t n hn, binRead_short hn h], rfl⟩)
  · rw [if_neg h]
    obtain ⟨v, hv, hd⟩ := binRead_long hn (r := r) (by omega)
    exact .inr (.inr ⟨v, by rw [fixed_plain t n hn, hv], fixed_reacts t n hn m c clock trx _ v hd (by simp; omega)⟩)

/-- A message that is decoded in any way, or not, and not answered. -/
theorem does_silent {t : TypeId} {m : Bool} {c : Ctx DevGeneral} {clock : Clock} {trx : Option UInt16} {r : Bytes}
    {x : Option (Pod × List Say)} (hp : decodePayload t r ≠ .panic)
    (hh : ∀ v, handlePacket devGeneral clock ⟨t.id, trx, .ptr t v⟩ c = .ret c) (hx : x = some (podOf m c, [])) :
    Does m c clock trx t r x := by
  cases h : decodePayload t r with
  | panic => exact absurd h hp
  | ret y =>
    cases y with
    | error e => exact .inr (.inl ⟨e, h, hx⟩)
    | ok v => exact .inr (.inr ⟨v, h, matches_silent (hh v) hx⟩)

theorem sim_does (g : SimT) (m : Bool) (c : Ctx DevGeneral) (clock : Clock)
    (trx : Option UInt16) (r : Bytes) :
    Does m c clock trx (.sim g) r (reactionTo 0x02 g.cmdID (podOf m c) (clock c.ticks) trx r) :=
  does_silent (by rw [ne_eq, decodePayload_panic]; simp) (fun _ => handlePacket_sim ..) (sim_silent ..)

theorem disp_does (g : DispT) (hn : (TypeId.disp g).size = none) (m : Bool) (c : Ctx DevGeneral) (clock : Clock)
    (trx : Option UInt16) (r : Bytes) :
    Does m c clock trx (.disp g) r (reactionTo 0x03 g.cmdID (podOf m c) (clock c.ticks) trx r) := by
  refine does_silent (by rw [ne_eq, decodePayload_panic]; simp) (fun v => (handlePacket_disp ..).trans ?_) ?_
  · cases g <;> first | rfl | cases hn
  · cases g <;> first | rfl | cases hn

theorem ext_does (g : ExtT) (hn : (TypeId.ext g).size = none) (m : Bool) (c : Ctx DevGeneral) (clock : Clock)
    (trx : Option UInt16) (r : Bytes) :
    Does m c clock trx (.ext g) r (reactionTo 0x04 g.cmdID (podOf m c) (clock c.ticks) trx r) := by
  refine does_silent (by rw [ne_eq, decodePayload_panic]; simp) (fun v => (handlePacket_ext ..).trans ?_) ?_
  · cases g <;> first | rfl | cases hn
  · cases g <;> first | rfl | cases hn

theorem aud_does (g : AudT) (hn : (TypeId.aud g).size = none) (m : Bool) (c : Ctx DevGeneral) (clock : Clock)
    (trx : Option UInt16) (r : Bytes) :
    Does m c clock trx (.aud g) r (reactionTo 0x0A g.cmdID (podOf m c) (clock c.ticks) trx r) := by
  cases g <;> first | cases hn | skip
  refine .inr (.inr ⟨(unmarshalRates r, ()), rfl, ?_⟩)
  rw [handlePacket_aud]
  exact matches_respond rfl

theorem certificate_done (m : Bool) (c : Ctx DevGeneral) (clock : Clock) (trx : Option UInt16) (major minor cur max : UInt8)
    (data : Bytes) (hm : major ≥ 0x02) (hl : ¬ cur < max) :
    Matches m c (handlePacket devGeneral clock ⟨(TypeId.gen .RetDevAuthenticationInfo).id, trx,
        .ptr (.gen .RetDevAuthenticationInfo) (major, minor, cur, max, data, ())⟩ c)
      (some ({ podOf m c with asked := (podOf m c).asked + 1 },
        [⟨0x0A, 0x02, some ((podOf m c).asked + 1), some []⟩, ⟨0x00, 0x16, trx, some [0x00]⟩,
          ⟨0x00, 0x17, trx, some (List.replicate 21 0)⟩])) := by
  have ha : authComplete (.ptr (.gen .RetDevAuthenticationInfo) (major, minor, cur, max, data, ())) = true := by
    have hl' : cur ≥ max := UInt8.not_lt.1 hl
    simp [authComplete, hm, hl']
  rw [handlePacket_general _ _ _ _ (by simp only [lingoID_id]; rfl), afterAudio, if_pos ha]
  simp only [handleGeneral]
  rw [if_pos hm, if_neg hl]
  simp only [respond_eq, out_ret_bind]
  split
  all_goals
    refine ⟨_, _, rfl, (by simp only [List.append_assoc]; rfl), ?_⟩
    simp only [List.singleton_append, List.map_cons, List.map_nil, sayOf_id, audioStartCmd, podOf, counter_low]
    rfl

theorem certificate_old (m : Bool) (c : Ctx DevGeneral) (clock : Clock) (trx : Option UInt16) (major minor cur max : UInt8)
    (data : Bytes) (hm : ¬ major ≥ 0x02) :
    Matches m c (handlePacket devGeneral clock ⟨(TypeId.gen .RetDevAuthenticationInfo).id, trx,
        .ptr (.gen .RetDevAuthenticationInfo) (major, minor, cur, max, data, ())⟩ c)
      (some ({ podOf m c with asked := (podOf m c).asked + 1 },
        [⟨0x0A, 0x02, some ((podOf m c).asked + 1), some []⟩, ⟨0x00, 0x16, trx, some [0x00]⟩])) := by
  have ha : authComplete (.ptr (.gen .RetDevAuthenticationInfo) (major, minor, cur, max, data, ())) = true := by
    have hl' : major < 2 := UInt8.not_le.1 hm
    simp [authComplete, hl']
  rw [handlePacket_general _ _ _ _ (by simp only [lingoID_id]; rfl), afterAudio, if_pos ha]
  simp only [handleGeneral]
  rw [if_neg hm]
  simp only [respond_eq]
  refine ⟨_, _, rfl, (List.append_assoc ..), ?_⟩
  simp only [List.singleton_append, List.map_cons, List.map_nil, sayOf_id, audioStartCmd, podOf, counter_low]
  rfl

theorem certificate_part (m : Bool) (c : Ctx DevGeneral) (clock : Clock) (trx : Option UInt16) (major minor cur max : UInt8)
    (data : Bytes) (hm : major ≥ 0x02) (hl : cur < max) :
    Matches m c (handlePacket devGeneral clock ⟨(TypeId.gen .RetDevAuthenticationInfo).id, trx,
        .ptr (.gen .RetDevAuthenticationInfo) (major, minor, cur, max, data, ())⟩ c)
      (some (podOf m c, [⟨0x00, 0x02, trx, some [0x00, 0x15]⟩])) := by
  have ha : authComplete (.ptr (.gen .RetDevAuthenticationInfo) (major, minor, cur, max, data, ())) = false := by
    have hl' : ¬ cur ≥ max := UInt8.not_le.2 hl
    have hm' : ¬ major < 2 := UInt8.not_lt.2 hm
    simp [authComplete, hl', hm']
  rw [handlePacket_gen _ _ _ _ _ ha]
  simp only [handleGeneral]
  rw [if_pos hm, if_pos hl]
  simp only [Ctx.ackSuccess, respond_eq, cmdID_id]
  split
  all_goals
    refine ⟨_, _, rfl, rfl, ?_⟩
    simp only [List.map_cons, List.map_nil, sayOf_id, podOf]
    rfl

theorem certificate_does (m : Bool) (c : Ctx DevGeneral) (clock : Clock) (trx : Option UInt16) (r : Bytes) :
    Does m c clock trx (.gen .RetDevAuthenticationInfo) r (certified (podOf m c) (clock c.ticks) trx r) := by
  have hd : ∀ r, decodePayload (.gen .RetDevAuthenticationInfo) r = .ret (unmarshalDevAuthInfo r) := fun _ => rfl
  unfold Does
  rw [hd]
  match r with
  | [] => exact .inr (.inl ⟨_, rfl, rfl⟩)
  | [_] => exact .inr (.inl ⟨_, rfl, rfl⟩)
  | major :: minor :: r =>
    by_cases h2 : major ≥ 0x02
    · have h2' : ¬ major.toNat < 2 := by have := UInt8.le_iff_toNat_le.1 h2; simp at this; omega
      match r with
      | [] =>
        refine .inr (.inl ⟨Err.shortPacket, ?_, ?_⟩)
        · simp only [unmarshalDevAuthInfo, if_pos h2]
        · simp only [certified, if_neg h2']
      | [_] =>
        refine .inr (.inl ⟨Err.shortPacket, ?_, ?_⟩)
        · simp only [unmarshalDevAuthInfo, if_pos h2]
        · simp only [certified, if_neg h2']
      | cur :: max :: data =>
        refine .inr (.inr ⟨(major, minor, cur, max, data, ()), ?_, ?_⟩)
        · simp only [unmarshalDevAuthInfo, if_pos h2]
        · simp only [certified, if_neg h2']
          by_cases hl : cur < max
          · rw [if_pos (UInt8.lt_iff_toNat_lt.1 hl)]; exact certificate_part (hm := h2) (hl := hl) ..
          · rw [if_neg (fun h => hl (UInt8.lt_iff_toNat_lt.2 h))]; exact certificate_done (hm := h2) (hl := hl) ..
    · have h2' : major.toNat < 2 := by
        have : ¬ (2 : UInt8).toNat ≤ major.toNat := fun h => h2 (UInt8.le_iff_toNat_le.2 h)
        simp at this; omega
      refine .inr (.inr ⟨(major, minor, 0, 0, [], ()), ?_, ?_⟩)
      · simp only [unmarshalDevAuthInfo, if_neg h2]
      · simp only [certified, if_pos h2']
        exact certificate_old (hm := h2) ..

theorem setTokens_ui (ts : List FIDTokenValue) (d : DevGeneral) : (ts.foldl devGeneral.setToken d).uimode = d.uimode := by
  induction ts generalizing d with
  | nil => rfl
  | cons t ts ih => rw [List.foldl_cons, ih]; rfl

theorem tokens_does (m : Bool) (c : Ctx DevGeneral) (clock : Clock) (trx : Option UInt16) (r : Bytes) :
    Does m c clock trx (.gen .SetFIDTokenValues) r (takesTokens (podOf m c) (clock c.ticks) trx r) := by
  match r with
  | [] => exact .inr (.inl ⟨_, rfl, rfl⟩)
  | n :: r =>
    have hd : decodePayload (.gen .SetFIDTokenValues) (n :: r) =
        ((mapVal (fun l => (l, ())) (unmarshalList unmarshalTokenValue n.toNat r)).getD .panic) := rfl
    have ht := token_fates n.toNat r
    unfold Does takesTokens
    rw [hd]
    match hf : tokenFates n.toNat r with
    | none => rw [hf] at ht; have ht : _ = _ := ht; rw [ht]; exact .inl ⟨rfl, by simp only [hf]⟩
    | some none => rw [hf] at ht; obtain ⟨e, ht⟩ := ht; rw [ht]; exact .inr (.inl ⟨_, rfl, by simp only [hf]⟩)
    | some (some a) =>
      rw [hf] at ht
      simp only [hf]
      obtain ⟨ts, ht, hl, hm⟩ := ht
      rw [ht]
      refine .inr (.inr ⟨(ts, ()), rfl, ?_⟩)
      rw [handlePacket_gen _ _ _ _ _ rfl]
      simp only [handleGeneral]
      simp only [respond_eq]
      refine ⟨_, _, rfl, rfl, ?_⟩
      simp only [List.map_cons, List.map_nil, sayOf_id, podOf, setTokens_ui]
      have he : (encodePayload (.ptr (.gen .RetFIDTokenValueACKs) (ackFIDTokenValues ts, ()))).toOption = a.map (n :: ·) := by
        show (marshalAcks (ackFIDTokenValues ts)).toOption = _
        rw [← hm, marshalAcks]
        cases marshalList marshalAck (ackFIDTokenValues ts) with
        | error e => rfl
        | ok b => simp [Except.toOption, ackFIDTokenValues, hl]
      rw [he]
      rfl

theorem launch_does (m : Bool) (c : Ctx DevGeneral) (clock : Clock) (trx : Option UInt16) (r : Bytes) :
    Does m c clock trx (.gen .RequestApplicationLaunch) r (launches (podOf m c) (clock c.ticks) trx r) := by
  have hd : decodePayload (.gen .RequestApplicationLaunch) r = (unmarshalAppLaunch r >>= fun v => .ret (.ok v)) := rfl
  unfold Does launches
  rw [hd, unmarshalAppLaunch_eq]
  match r with
  | [] => exact .inl ⟨rfl, rfl⟩
  | [_] => exact .inl ⟨rfl, rfl⟩
  | [_, _] => exact .inl ⟨rfl, rfl⟩
  | x :: y :: z :: r =>
    refine .inr (.inr ⟨(x, y, z, r, ()), rfl, ?_⟩)
    rw [handlePacket_gen _ _ _ _ _ rfl, if_neg (by simp)]
    exact matches_ack rfl

theorem gen_does (g : GenT) (hn : (TypeId.gen g).size = none) (m : Bool) (c : Ctx DevGeneral) (clock : Clock)
    (trx : Option UInt16) (r : Bytes) :
    Does m c clock trx (.gen g) r (reactionTo 0x00 g.cmdID (podOf m c) (clock c.ticks) trx r) := by
  by_cases h1 : g = .RetDevAuthenticationInfo
  · subst h1; exact certificate_does ..
  by_cases h2 : g = .RetDevAuthenticationSignature
  · subst h2
    refine .inr (.inr ⟨(r, ()), rfl, ?_⟩)
    rw [handlePacket_gen _ _ _ _ _ rfl]
    exact matches_respond rfl
  by_cases h3 : g = .SetFIDTokenValues
  · subst h3; exact tokens_does ..
  by_cases h4 : g = .RequestApplicationLaunch
  · subst h4; exact launch_does ..
  refine does_silent (by rw [ne_eq, decodePayload_panic]; simp [h3, h4]) (fun v => (handlePacket_gen _ _ _ _ _ ?_).trans ?_) ?_
  · cases g <;> first | rfl | exact absurd rfl h1 | cases hn
  · cases g <;> first | rfl | exact absurd rfl h1 | exact absurd rfl h2 | exact absurd rfl h3 | exact absurd rfl h4 | cases hn
  · cases g <;> first | rfl | exact absurd rfl h1 | exact absurd rfl h2 | exact absurd rfl h3 | exact absurd rfl h4 | cases hn

/-- The rest of a packet taken as the message `t` does what the specification says. -/
theorem type_does (t : TypeId) (m : Bool) (c : Ctx DevGeneral) (clock : Clock) (trx : Option UInt16) (r : Bytes) :
    Does m c clock trx t r
      (match cutBody t.size r with
        | none => some (podOf m c, [])
        | some b => reactionTo t.lingo t.cmd (podOf m c) (clock c.ticks) trx b) := by
  cases hn : t.size with
  | some n =>
    have h := fixed_does t n hn m c clock trx r
    simp only [cutBody]
    by_cases hl : r.length < n
    · rw [if_pos hl] at h ⊢; exact h
    · rw [if_neg hl] at h ⊢; exact h
  | none =>
    match t with
    | .gen g => exact gen_does g hn m c clock trx r
    | .sim g => exact sim_does g m c clock trx r
    | .disp g => exact disp_does g hn m c clock trx r
    | .ext g => exact ext_does g hn m c clock trx r
    | .aud g => exact aud_does g hn m c clock trx r

end Ipod
