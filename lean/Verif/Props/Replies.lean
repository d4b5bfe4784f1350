import Verif.Props.Handlers
import Verif.Props.Serde
import Verif.Lemmas.Answers

/-! # Properties C25, C28 (handler half), C64–C66: what is answered -/

namespace Props
open Go Spec Ipod

/-! ## C66 -/

theorem isBE_enc2 (n : UInt16) (b : Bytes) (h : IsBE 2 n.toNat b) : b = beEnc 2 n.toNat := by
  rw [← h.2, beVal_eq]; exact (beEnc_beDec b 2 h.1).symm
theorem isBE_enc8 (n : UInt64) (b : Bytes) (h : IsBE 8 n.toNat b) : b = beEnc 8 n.toNat := by
  rw [← h.2, beVal_eq]; exact (beEnc_beDec b 8 h.1).symm

theorem idBytes_gen (k : UInt8) (l : UInt8) (c : UInt16) (hl : l = 0x00) (hc : c = k.toUInt16) :
    idBytes l c = [0x00, k] := by
  subst hl hc
  have := k.toNat_lt
  simp [idBytes, UInt8.toNat_toUInt16, Nat.mod_eq_of_lt this]

theorem gen_mode (m : Bool) (t : GenT) (ht : (TypeId.gen t).id ∉ [(0x00 : UInt32), 0x13, 0x38] := by decide +kernel) :
    handleCmdID m (TypeId.gen t).id = m := by
  simp only [List.mem_cons, List.not_mem_nil, or_false, not_or] at ht
  rw [handleCmdID_eq, if_neg (fun h => h.elim ht.1 ht.2.1), if_neg ht.2.2]

/-- One exchange: a packet of a fixed-size type comes in, one message goes out. -/
theorem general_exchange {σ : Type} {D : Device σ} {clock : Clock} {c : Ctx σ} {mode mode' : Bool} {trx : Option UInt16}
    (hm : trx.isSome = true → mode' = true) (t t' : GenT) {n : Nat} (hs : TypeId.size (.gen t) = some n)
    (hne : TypeId.gen t ≠ .gen .ACKDataDropped)
    (v : TypeId.Val (.gen t)) (v' : TypeId.Val (.gen t')) (k k' : UInt8) (body reply : Bytes) (s' : σ)
    (hk : TypeId.cmd (.gen t) = k.toUInt16) (hk' : TypeId.cmd (.gen t') = k'.toUInt16)
    (hmode : handleCmdID mode (TypeId.id (.gen t)) = mode') (hmode' : handleCmdID mode' (TypeId.id (.gen t')) = mode')
    (hb : encStruct (TypeId.schema (.gen t)) v = body) (hr : encodePayload (.ptr (.gen t') v') = .ok reply)
    (ha : authComplete (.ptr (.gen t) v) = false)
    (hh : ∃ c', handleGeneral D ⟨TypeId.id (.gen t), trx, .ptr (.gen t) v⟩ c = .ret c' ∧ c'.dev = s' ∧
      c'.out = c.out ++ [⟨TypeId.id (.gen t'), trx, .ptr (.gen t') v'⟩]) :
    ∃ cmd, unmarshalCmd mode (generalPacket k trx body) = .ret (mode', cmd, none) ∧
      ∀ c' new, Handles D clock cmd c c' new → c'.dev = s' ∧
        ∃ x, new = [x] ∧ marshalCmd mode' x = (mode', .ok (generalPacket k' trx reply)) := by
  refine ⟨⟨TypeId.id (.gen t), trx, .ptr (.gen t) v⟩, ?_, ?_⟩
  · have := unmarshalCmd_built mode (.gen t) trx body v ?_ (by rw [← hb]; exact decodePayload_fixed hs v)
    · rw [idBytes_gen k (TypeId.lingo (.gen t)) _ rfl hk, hmode, trxBytes_eq] at this
      simpa [generalPacket] using this
    · rw [trxBytes_length, ← hb, encStruct_length hs v]
      cases trx with
      | none => simpa using lookup_plain hs hne _
      | some tr =>
        have := lookup_trx hs (handleCmdID mode (TypeId.id (.gen t)))
        rw [Nat.add_comm] at this
        simpa using this
  · rintro c' new ⟨h1, h2⟩
    obtain ⟨c'', e1, e2, e3⟩ := hh
    have hl : LingoCmdID.lingoID (TypeId.id (.gen t)) = 0x00 := lingoID_id (.gen t)
    rw [handlePacket_general D clock ⟨TypeId.id (.gen t), trx, .ptr (.gen t) v⟩ c hl] at h1
    simp only [afterAudio, ha, Bool.false_eq_true, if_false] at h1
    rw [e1] at h1
    cases h1
    rw [e3] at h2
    refine ⟨e2, _, out1 h2, ?_⟩
    rw [marshalCmd_eq]
    simp only [hmode', lingoID_id, cmdID_id, hr]
    rw [idBytes_gen k' (TypeId.lingo (.gen t')) _ rfl hk', trxBytes_eq]
    have : sentTrx mode' trx = trx := by
      unfold sentTrx
      cases trx with
      | none => simp
      | some _ => simp [hm rfl]
    rw [this]
    simp [generalPacket]

/-- C66. Queries are answered with the device's values. The packets are given byte by byte; transactions may be used or
not. -/
theorem C66_queries {σ : Type} {D : Device σ} {clock : Clock} {c : Ctx σ} (mode : Bool) (trx : Option UInt16)
    (hm : trx.isSome = true → mode = true) (k k' : UInt8) (body reply : Bytes) (h : DeviceReply D c.dev k body k' reply) :
    ∃ cmd, unmarshalCmd mode (generalPacket k trx body) = .ret (mode, cmd, none) ∧
      ∀ c' new, Handles D clock cmd c c' new → c'.dev = c.dev ∧
        ∃ x, new = [x] ∧ marshalCmd mode x = (mode, .ok (generalPacket k' trx reply)) := by
  cases h with
  | remoteUIMode =>
    refine general_exchange hm .RequestRemoteUIMode .ReturnRemoteUIMode rfl (by decide) ()
      (boolToByte (D.uiMode c.dev = uiModeExtended), ()) _ _ _ _ _ rfl rfl (gen_mode _ _) (gen_mode _ _) rfl ?_ rfl
      (by simp only [handleGeneral, respond_eq, Out.ret.injEq, exists_eq_left']; first | exact ⟨rfl, rfl⟩ | exact ⟨trivial, rfl⟩ | exact ⟨trivial, trivial⟩)
    rw [encodePayload_fixed rfl]
    simp [encStruct, FTy.enc, boolToByte]
  | name =>
    exact general_exchange hm .RequestiPodName .ReturniPodName rfl (by decide) () (_, ()) _ _ _ _ _ rfl rfl (gen_mode _ _) (gen_mode _ _) rfl
      rfl rfl (by simp only [handleGeneral, respond_eq, Out.ret.injEq, exists_eq_left']; first | exact ⟨rfl, rfl⟩ | exact ⟨trivial, rfl⟩ | exact ⟨trivial, trivial⟩)
  | softwareVersion =>
    exact general_exchange hm .RequestiPodSoftwareVersion .ReturniPodSoftwareVersion rfl (by decide) () (_, _, _, ())
      _ _ _ _ _ rfl rfl (gen_mode _ _) (gen_mode _ _) rfl rfl rfl (by simp only [handleGeneral, respond_eq, Out.ret.injEq, exists_eq_left']; first | exact ⟨rfl, rfl⟩ | exact ⟨trivial, rfl⟩ | exact ⟨trivial, trivial⟩)
  | serial =>
    exact general_exchange hm .RequestiPodSerialNum .ReturniPodSerialNum rfl (by decide) () (_, ()) _ _ _ _ _ rfl rfl (gen_mode _ _)
      (gen_mode _ _) rfl rfl rfl (by simp only [handleGeneral, respond_eq, Out.ret.injEq, exists_eq_left']; first | exact ⟨rfl, rfl⟩ | exact ⟨trivial, rfl⟩ | exact ⟨trivial, trivial⟩)
  | lingoVersion l =>
    exact general_exchange hm .RequestLingoProtocolVersion .ReturnLingoProtocolVersion rfl (by decide) (l, ()) (_, _, _, ())
      _ _ _ _ _ rfl rfl (gen_mode _ _) (gen_mode _ _) rfl rfl rfl (by simp only [handleGeneral, respond_eq, Out.ret.injEq, exists_eq_left']; first | exact ⟨rfl, rfl⟩ | exact ⟨trivial, rfl⟩ | exact ⟨trivial, trivial⟩)
  | maxPayload _ hb =>
    rw [isBE_enc2 _ _ hb]
    exact general_exchange hm .RequestTransportMaxPayloadSize .ReturnTransportMaxPayloadSize rfl (by decide) () (_, ())
      _ _ _ _ _ rfl rfl (gen_mode _ _) (gen_mode _ _) rfl rfl rfl (by simp only [handleGeneral, respond_eq, Out.ret.injEq, exists_eq_left']; first | exact ⟨rfl, rfl⟩ | exact ⟨trivial, rfl⟩ | exact ⟨trivial, trivial⟩)
  | preference cls =>
    exact general_exchange hm .GetiPodPreferences .RetiPodPreferences rfl (by decide) (cls, ()) (_, _, ())
      _ _ _ _ _ rfl rfl (gen_mode _ _) (gen_mode _ _) rfl rfl rfl (by simp only [handleGeneral, respond_eq, Out.ret.injEq, exists_eq_left']; first | exact ⟨rfl, rfl⟩ | exact ⟨trivial, rfl⟩ | exact ⟨trivial, trivial⟩)
  | uiMode =>
    exact general_exchange hm .GetUIMode .RetUIMode rfl (by decide) () (_, ()) _ _ _ _ _ rfl rfl (gen_mode _ _) (gen_mode _ _) rfl
      rfl rfl (by simp only [handleGeneral, respond_eq, Out.ret.injEq, exists_eq_left']; first | exact ⟨rfl, rfl⟩ | exact ⟨trivial, rfl⟩ | exact ⟨trivial, trivial⟩)
  | lingoOptions l _ hb =>
    rw [isBE_enc8 _ _ hb]
    exact general_exchange hm .GetiPodOptionsForLingo .RetiPodOptionsForLingo rfl (by decide) (l, ()) (_, _, ())
      _ _ _ _ _ rfl rfl (gen_mode _ _) (gen_mode _ _) rfl rfl rfl (by simp only [handleGeneral, respond_eq, Out.ret.injEq, exists_eq_left']; first | exact ⟨rfl, rfl⟩ | exact ⟨trivial, rfl⟩ | exact ⟨trivial, trivial⟩)
  | eventMask _ hb =>
    rw [isBE_enc8 _ _ hb]
    exact general_exchange hm .GetEventNotification .RetEventNotification rfl (by decide) () (_, ())
      _ _ _ _ _ rfl rfl (gen_mode _ _) (gen_mode _ _) rfl rfl rfl (by simp only [handleGeneral, respond_eq, Out.ret.injEq, exists_eq_left']; first | exact ⟨rfl, rfl⟩ | exact ⟨trivial, rfl⟩ | exact ⟨trivial, trivial⟩)
  | supportedEventMask _ hb =>
    rw [isBE_enc8 _ _ hb]
    exact general_exchange hm .GetSupportedEventNotification .RetSupportedEventNotification rfl (by decide) () (_, ())
      _ _ _ _ _ rfl rfl (gen_mode _ _) (gen_mode _ _) rfl rfl rfl (by simp only [handleGeneral, respond_eq, Out.ret.injEq, exists_eq_left']; first | exact ⟨rfl, rfl⟩ | exact ⟨trivial, rfl⟩ | exact ⟨trivial, trivial⟩)

example (clock : Clock) (c : Ctx DevGeneral) : ∃ cmd, unmarshalCmd true (generalPacket 0x07 (some 9) []) = .ret (true, cmd, none) ∧
    ∀ c' new, Handles devGeneral clock cmd c c' new → c'.dev = c.dev ∧
      ∃ x, new = [x] ∧ marshalCmd true x = (true, .ok (generalPacket 0x08 (some 9) (devGeneral.name c.dev ++ [0x00]))) :=
  C66_queries true (some 9) (fun _ => rfl) 0x07 0x08 [] _ .name

/-- C66. Setters store what the accessory sent and are acknowledged with success. StartIDPS also switches transactions
on. -/
theorem C66_setters {σ : Type} {D : Device σ} {clock : Clock} {c : Ctx σ} (mode : Bool) (trx : Option UInt16)
    (k : UInt8) (body : Bytes) (s' : σ) (h : DeviceSet D c.dev k body s')
    (hm : trx.isSome = true → mode = true ∨ k = 0x38) :
    ∃ cmd, unmarshalCmd mode (generalPacket k trx body) = .ret (mode || k == 0x38, cmd, none) ∧
      ∀ c' new, Handles D clock cmd c c' new → c'.dev = s' ∧
        ∃ x, new = [x] ∧ marshalCmd (mode || k == 0x38) x = (mode || k == 0x38, .ok (generalPacket 0x02 trx [0x00, k])) := by
  have hm' : trx.isSome = true → (mode || k == 0x38) = true := by
    intro ht; rcases hm ht with h | h <;> simp [h]
  cases h with
  | preference cls setting restore =>
    simp only [show ((0x2B : UInt8) == 0x38) = false from rfl, Bool.or_false] at hm' ⊢
    exact general_exchange hm' .SetiPodPreferences .ACK rfl (by decide) (cls, setting, restore, ()) (_, _, ())
      _ _ _ _ _ rfl rfl (gen_mode _ _) (gen_mode _ _) rfl rfl rfl (by simp only [handleGeneral, Ctx.ackSuccess, respond_eq, Out.ret.injEq, exists_eq_left']; first | exact ⟨rfl, rfl⟩ | exact ⟨trivial, rfl⟩ | exact ⟨trivial, trivial⟩)
  | startIDPS =>
    simp only [show ((0x38 : UInt8) == 0x38) = true from rfl, Bool.or_true] at hm' ⊢
    exact general_exchange (fun _ => rfl) .StartIDPS .ACK rfl (by decide) () (_, _, ())
      _ _ _ _ _ rfl rfl (by rw [handleCmdID_eq]; rfl) (gen_mode _ _) rfl rfl rfl
      (by simp only [handleGeneral, Ctx.ackSuccess, respond_eq, Out.ret.injEq, exists_eq_left']; first | exact ⟨rfl, rfl⟩ | exact ⟨trivial, rfl⟩ | exact ⟨trivial, trivial⟩)
  | eventMask mask _ hb =>
    rw [isBE_enc8 _ _ hb]
    simp only [show ((0x49 : UInt8) == 0x38) = false from rfl, Bool.or_false] at hm' ⊢
    exact general_exchange hm' .SetEventNotification .ACK rfl (by decide) (mask, ()) (_, _, ())
      _ _ _ _ _ rfl rfl (gen_mode _ _) (gen_mode _ _) rfl rfl rfl (by simp only [handleGeneral, Ctx.ackSuccess, respond_eq, Out.ret.injEq, exists_eq_left']; first | exact ⟨rfl, rfl⟩ | exact ⟨trivial, rfl⟩ | exact ⟨trivial, trivial⟩)
  | cancel lingo cmd t bc bt hc ht =>
    rw [isBE_enc2 _ _ hc, isBE_enc2 _ _ ht]
    simp only [show ((0x50 : UInt8) == 0x38) = false from rfl, Bool.or_false] at hm' ⊢
    exact general_exchange hm' .CancelCommand .ACK rfl (by decide) (lingo, cmd, t, ()) (_, _, ())
      _ _ _ _ _ rfl rfl (gen_mode _ _) (gen_mode _ _) rfl rfl rfl (by simp only [handleGeneral, Ctx.ackSuccess, respond_eq, Out.ret.injEq, exists_eq_left']; first | exact ⟨rfl, rfl⟩ | exact ⟨trivial, rfl⟩ | exact ⟨trivial, trivial⟩)

example (clock : Clock) (c : Ctx DevGeneral) :
    ∃ cmd, unmarshalCmd true (generalPacket 0x50 (some 9) [0x04, 0x01, 0x02, 0x03, 0x04]) = .ret (true, cmd, none) ∧
      ∀ c' new, Handles devGeneral clock cmd c c' new → c'.dev = devGeneral.cancelCommand c.dev 0x04 0x0102 0x0304 ∧
        ∃ x, new = [x] ∧ marshalCmd true x = (true, .ok (generalPacket 0x02 (some 9) [0x00, 0x50])) :=
  C66_setters true (some 9) 0x50 [0x04, 0x01, 0x02, 0x03, 0x04] _
    (.cancel _ _ _ [0x01, 0x02] [0x03, 0x04] ⟨rfl, by decide⟩ ⟨rfl, by decide⟩) (fun _ => .inl rfl)

/-- A query with a transaction and a setter without. -/
example : ∃ r, DeviceReply devGeneral DevGeneral.zero 0x07 [] 0x08 r ∧ r = "ipod-gadget".toUTF8.toList ++ [0x00] :=
  ⟨_, .name, rfl⟩
example : DeviceSet devGeneral DevGeneral.zero 0x50 [0x04, 0x01, 0x02, 0x03, 0x04]
    (devGeneral.cancelCommand DevGeneral.zero 0x04 0x0102 0x0304) :=
  .cancel _ _ _ [0x01, 0x02] [0x03, 0x04] ⟨rfl, by decide⟩ ⟨rfl, by decide⟩

/-! ## C28 -/

/-- C28. Name and serial number go out as the device's string and one NUL. -/
theorem C28_device_strings {σ : Type} {D : Device σ} {clock : Clock} {c : Ctx σ} (mode : Bool) (trx : Option UInt16)
    (hm : trx.isSome = true → mode = true) (k : UInt8) (s : Bytes)
    (hs : k = 0x07 ∧ s = D.name c.dev ∨ k = 0x0B ∧ s = D.serialNum c.dev) :
    ∃ cmd, unmarshalCmd mode (generalPacket k trx []) = .ret (mode, cmd, none) ∧
      ∀ c' new, Handles D clock cmd c c' new →
        ∃ x, new = [x] ∧ marshalCmd mode x = (mode, .ok (generalPacket (k + 1) trx (s ++ [0x00]))) := by
  rcases hs with ⟨rfl, rfl⟩ | ⟨rfl, rfl⟩
  · obtain ⟨cmd, h1, h2⟩ := C66_queries (clock := clock) (c := c) mode trx hm _ _ _ _ (.name (D := D))
    exact ⟨cmd, h1, fun c' new h => (h2 c' new h).2⟩
  · obtain ⟨cmd, h1, h2⟩ := C66_queries (clock := clock) (c := c) mode trx hm _ _ _ _ (.serial (D := D))
    exact ⟨cmd, h1, fun c' new h => (h2 c' new h).2⟩

example (clock : Clock) (c : Ctx DevGeneral) : ∃ cmd, unmarshalCmd false (generalPacket 0x07 none []) = .ret (false, cmd, none) ∧
    ∀ c' new, Handles devGeneral clock cmd c c' new →
      ∃ x, new = [x] ∧ marshalCmd false x = (false, .ok (generalPacket 0x08 none ("ipod-gadget".toUTF8.toList ++ [0x00]))) :=
  C28_device_strings false none (fun h => by simp at h) 0x07 "ipod-gadget".toUTF8.toList (.inl ⟨rfl, rfl⟩)

/-! ## C64 -/

theorem handlePacket_of_lingo {σ : Type} {D : Device σ} {clock : Clock} {cmd : Command} {c c' : Ctx σ}
    (h : handlePacket D clock cmd c = .ret c') :
    (cmd.id.lingoID = 0x00 ∧ handleGeneral D cmd (afterAudio cmd c) = .ret c') ∨
    (cmd.id.lingoID = 0x03 ∧ handleDispRemote clock cmd c = .ret c') ∨
    (cmd.id.lingoID = 0x04 ∧ handleExtRemote cmd c = .ret c') ∨
    (cmd.id.lingoID = 0x0A ∧ handleAudio cmd c = .ret c') ∨
    (cmd.id.lingoID ∉ [(0x00 : UInt8), 0x03, 0x04, 0x0A] ∧ c' = c) := by
  by_cases h0 : cmd.id.lingoID = 0x00
  · rw [handlePacket_general _ _ _ _ h0] at h; exact .inl ⟨h0, h⟩
  unfold handlePacket at h
  rw [if_neg (show ¬ cmd.id.lingoID = lingoGeneralID from h0)] at h
  by_cases h2 : cmd.id.lingoID = lingoSimpleRemoteID
  · rw [if_pos h2] at h; cases h
    exact .inr (.inr (.inr (.inr ⟨by rw [h2]; decide, rfl⟩)))
  rw [if_neg h2] at h
  by_cases h3 : cmd.id.lingoID = lingoDisplayRemoteID
  · rw [if_pos h3] at h; exact .inr (.inl ⟨h3, h⟩)
  rw [if_neg h3] at h
  by_cases h4 : cmd.id.lingoID = lingoExtRemoteID
  · rw [if_pos h4] at h; exact .inr (.inr (.inl ⟨h4, h⟩))
  rw [if_neg h4] at h
  by_cases h5 : cmd.id.lingoID = lingoDigitalAudioID
  · rw [if_pos h5] at h; exact .inr (.inr (.inr (.inl ⟨h5, h⟩)))
  rw [if_neg h5] at h
  cases h
  refine .inr (.inr (.inr (.inr ⟨?_, rfl⟩)))
  simp only [List.mem_cons, List.not_mem_nil, or_false, not_or]
  exact ⟨h0, h3, h4, h5⟩

theorem authComplete_false {p : Payload} (h : ∀ v, p ≠ .ptr (.gen .RetDevAuthenticationInfo) v) :
    authComplete p = false := by
  unfold authComplete
  split
  · exact absurd rfl (h _)
  · rfl

/-- C64. The messages sent in answer to a received command are those of the protocol table `answers`, in number, kind and
order. -/
theorem C64_replies {σ : Type} {D : Device σ} {clock : Clock} {cmd : Command} {c c' : Ctx σ} {new : List Command}
    (hr : Received cmd) (h : Handles D clock cmd c c' new) {t : TypeId} {v : t.Val} (hp : cmd.payload = .ptr t v) :
    new.map (fun x => idPair x.id) ∈ answers (idPair cmd.id).1 (idPair cmd.id).2 := by
  have hid := (received_wf hr).2 t v hp
  have hl : cmd.id.lingoID = t.lingo := by rw [hid]; exact lingoID_id t
  by_cases ha : t = .gen .RetDevAuthenticationInfo
  · subst ha
    obtain ⟨major, minor, cur, max, data, u⟩ := v
    have e1 := auth_info_answers hr h hp
    have e2 : new.map (fun x => idPair x.id) = (new.map (·.payload)).map
        (fun p => match p with | .ptr t _ => idPair t.id | _ => (0, 0)) := by
      rw [List.map_map]
      refine List.map_congr_left fun x hx => ?_
      rcases handles_mem h hx with ⟨rfl, _⟩ | hx
      · rfl
      · obtain ⟨t, v, h1, h2, _⟩ := hx.typed
        simp only [Function.comp, h1, h2]
    rw [e2, e1, hid]
    split
    · decide +kernel
    split <;> decide +kernel
  · have ha' : authComplete cmd.payload = false := by
      apply authComplete_false
      intro w hw
      rw [hp] at hw; injection hw with hw; exact ha hw
    rw [show (idPair cmd.id).1 = (LingoCmdID.lingoID cmd.id).toNat from rfl, hl]
    obtain ⟨h1, h2⟩ := h
    rcases handlePacket_of_lingo h1 with ⟨e, h1⟩ | ⟨e, h1⟩ | ⟨e, h1⟩ | ⟨e, h1⟩ | ⟨e, rfl⟩
    · rw [hl] at e
      rw [afterAudio, ha'] at h1
      have := general_answers h1 h2 hp hid e ha
      rw [e]; exact this
    · rw [hl] at e
      have := disp_answers h1 h2 hp hid e
      rw [e]; exact this
    · rw [hl] at e
      have := ext_answers h1 h2 hp hid e
      rw [e]; exact this
    · rw [hl] at e
      have := audio_answers h1 h2 hp hid e
      rw [e]; exact this
    · rw [out0 h2]
      rw [hl] at e
      have : answers t.lingo.toNat (idPair cmd.id).2 = [[]] := by
        simp only [List.mem_cons, List.not_mem_nil, or_false, not_or] at e
        simp only [← UInt8.toNat_inj, UInt8.reduceToNat] at e
        rw [answers, if_neg e.1, if_neg e.2.1, if_neg e.2.2.1, if_neg e.2.2.2]
      rw [this]; simp

example {σ : Type} (D : Device σ) (clock : Clock) (c : Ctx σ) : ∃ c' new, Handles D clock nameRequest c c' new ∧
    new.map (fun x => idPair x.id) ∈ answers (idPair nameRequest.id).1 (idPair nameRequest.id).2 :=
  have ⟨c', new, h⟩ := handles_total D clock nameRequest c
  ⟨c', new, h, C64_replies nameRequest_received h (t := .gen .RequestiPodName) rfl⟩

/-- C64. A packet that could not be decoded (known id, malformed content, or no id at all) is not answered. -/
theorem C64_undecodable {σ : Type} {D : Device σ} {clock : Clock} {cmd : Command} {c c' : Ctx σ} {new : List Command}
    (h : Handles D clock cmd c c' new) (hp : cmd.payload = .nil) : new = [] ∧ c' = c := by
  obtain ⟨h1, h2⟩ := h
  have ha : authComplete cmd.payload = false := by rw [hp]; rfl
  have : c' = c := by
    rcases handlePacket_of_lingo h1 with ⟨e, h1⟩ | ⟨e, h1⟩ | ⟨e, h1⟩ | ⟨e, h1⟩ | ⟨e, rfl⟩
    · rw [afterAudio, ha] at h1
      simp only [handleGeneral, hp] at h1
      cases h1; rfl
    · simp only [handleDispRemote, hp] at h1
      cases h1; rfl
    · simp only [handleExtRemote, hp] at h1
      cases h1; rfl
    · simp only [handleAudio, hp] at h1
      cases h1; rfl
    · rfl
  subst this
  exact ⟨out0 h2, rfl⟩

example {σ : Type} (D : Device σ) (clock : Clock) (c : Ctx σ) : ∃ c' new, Handles D clock ⟨0x00000F, none, .nil⟩ c c' new ∧ new = [] ∧ c' = c :=
  have ⟨c', new, h⟩ := handles_total D clock ⟨0x00000F, none, .nil⟩ c
  ⟨c', new, h, C64_undecodable h rfl⟩

/-- C64. IdentifyDeviceLingoes starts authentication exactly when the accessory has a device id. -/
theorem C64_identify {σ : Type} {D : Device σ} {clock : Clock} {cmd : Command} {c c' : Ctx σ} {new : List Command}
    (hr : Received cmd) (h : Handles D clock cmd c c' new) (lingos options deviceID : UInt32)
    (hp : cmd.payload = .ptr (.gen .IdentifyDeviceLingoes) (lingos, options, deviceID, ())) :
    new.map (fun x => idPair x.id) = (0x00, 0x02) :: if deviceID = 0 then [] else [(0x00, 0x14)] := by
  obtain ⟨h1, h2⟩ := h
  rw [handlePacket_general _ _ _ _ (lingo_of_gen (received_wf hr).2 hp)] at h1
  simp only [afterAudio, hp, authComplete, Bool.false_eq_true, if_false, handleGeneral, Ctx.ackSuccess, respond_eq,
    out_ret_bind] at h1
  by_cases hd : deviceID = 0
  · rw [if_neg (by simpa using hd)] at h1
    cases h1
    rw [out1 h2, if_pos hd]
    simp only [List.map_cons, List.map_nil]
    decide +kernel
  · rw [if_pos hd] at h1
    cases h1
    rw [out2 h2, if_neg hd]
    simp only [List.map_cons, List.map_nil]
    decide +kernel

/-- C64. EndIDPS: status 0 is confirmed and authentication started; 1 and 2 are confirmed only; others are ignored. The
device is told in any case. -/
theorem C64_end_idps {σ : Type} {D : Device σ} {clock : Clock} {cmd : Command} {c c' : Ctx σ} {new : List Command}
    (hr : Received cmd) (h : Handles D clock cmd c c' new) (status : UInt8)
    (hp : cmd.payload = .ptr (.gen .EndIDPS) (status, ())) :
    c'.dev = D.endIDPS c.dev status ∧
    new.map (·.payload) =
      if status = 0x00 then [.ptr (.gen .IDPSStatus) (0x00, ()), .ptr (.gen .GetDevAuthenticationInfo) ()]
      else if status = 0x01 then [.ptr (.gen .IDPSStatus) (0x04, ())]
      else if status = 0x02 then [.ptr (.gen .IDPSStatus) (0x06, ())]
      else [] := by
  obtain ⟨h1, h2⟩ := h
  rw [handlePacket_general _ _ _ _ (lingo_of_gen (received_wf hr).2 hp)] at h1
  simp only [afterAudio, hp, authComplete, Bool.false_eq_true, if_false, handleGeneral, respond_eq, send_eq,
    out_ret_bind] at h1
  split at h1
  · cases h1; rw [out2 h2]; simp [*]
  split at h1
  · cases h1; rw [out1 h2]; simp [*]
  split at h1
  · cases h1; rw [out1 h2]; simp [*]
  · cases h1; rw [out0 h2]; simp [*]

example {σ : Type} (D : Device σ) (clock : Clock) (c : Ctx σ) : ∃ c' new,
    Handles D clock ⟨TypeId.id (.gen .EndIDPS), some 7, .ptr (.gen .EndIDPS) (0x00, ())⟩ c c' new ∧ c'.dev = D.endIDPS c.dev 0x00 ∧
    new.map (·.payload) = [.ptr (.gen .IDPSStatus) (0x00, ()), .ptr (.gen .GetDevAuthenticationInfo) ()] :=
  have ⟨c', new, h⟩ := handles_total D clock _ c
  ⟨c', new, h, C64_end_idps ⟨true, [0x00, 0x3B, 0x00, 0x07, 0x00], true, none, by decide +kernel⟩ h 0x00 rfl⟩

theorem dispStateInfo_some {ty : UInt8} {now : Time} {i : DispState} (h : dispStateInfo ty now = some i) :
    (ty.toNat ≤ 16 ∧ ty.toNat ≠ 10) ∧ DispStateOK ty i := by
  unfold dispStateInfo at h
  split at h <;> rename_i hs
  all_goals first
    | (cases h; exact ⟨by omega, UInt8.toNat_inj.1 hs⟩)
    | cases h

theorem dispStateInfo_none {ty : UInt8} {now : Time} (h : dispStateInfo ty now = none) :
    ¬ (ty.toNat ≤ 16 ∧ ty.toNat ≠ 10) := by
  unfold dispStateInfo at h
  split at h
  all_goals first
    | cases h; done
    | (simp only [imp_false] at *; omega)

theorem dispTrackInfo_some {ty : UInt8} {i : DispTrack} (h : dispTrackInfo ty = some i) :
    ty.toNat ≤ 8 ∧ DispTrackOK ty i := by
  unfold dispTrackInfo at h
  split at h <;> rename_i hs
  all_goals first
    | (cases h; exact ⟨by omega, UInt8.toNat_inj.1 hs⟩)
    | cases h

theorem dispTrackInfo_none {ty : UInt8} (h : dispTrackInfo ty = none) : ¬ ty.toNat ≤ 8 := by
  unfold dispTrackInfo at h
  split at h
  all_goals first
    | cases h; done
    | (simp only [imp_false] at *; omega)

/-- C64. State infos of the types 0–9 and 11–16 are answered, with the type asked for and a record of that type; others
are not. -/
theorem C64_state_info {σ : Type} {D : Device σ} {clock : Clock} {cmd : Command} {c c' : Ctx σ} {new : List Command}
    (hr : Received cmd) (h : Handles D clock cmd c c' new) (ty : UInt8)
    (hp : cmd.payload = .ptr (.disp .GetiPodStateInfo) (ty, ())) :
    if ty.toNat ≤ 16 ∧ ty.toNat ≠ 10 then
      ∃ info, new.map (·.payload) = [.ptr (.disp .RetiPodStateInfo) (ty, info, ())] ∧ DispStateOK ty info
    else new = [] := by
  have hid := (received_wf hr).2 _ _ hp
  have hl : cmd.id.lingoID = 0x03 := by rw [hid]; exact lingoID_id _
  obtain ⟨h1, h2⟩ := h
  have h1 : handleDispRemote clock cmd c = .ret c' := by
    rcases handlePacket_of_lingo h1 with ⟨e, _⟩ | ⟨_, h1⟩ | ⟨e, _⟩ | ⟨e, _⟩ | ⟨e, _⟩
    · rw [hl] at e; cases e
    · exact h1
    · rw [hl] at e; cases e
    · rw [hl] at e; cases e
    · rw [hl] at e; exact absurd e (by decide)
  simp only [handleDispRemote, hp] at h1
  split at h1
  · rename_i hn
    rw [if_neg (dispStateInfo_none hn)]
    cases h1
    exact out0 h2
  · rename_i info hn
    have key := dispStateInfo_some hn
    rw [if_pos key.1]
    simp only [respond_eq] at h1
    cases h1
    have h2 : c.out ++ [⟨TypeId.id (.disp .RetiPodStateInfo), cmd.trx,
        .ptr (.disp .RetiPodStateInfo) (ty, info, ())⟩] = c.out ++ new := by
      rw [← h2]; split <;> rfl
    exact ⟨info, by rw [out1 h2]; rfl, key.2⟩

example {σ : Type} (D : Device σ) (clock : Clock) (c : Ctx σ) : ∃ c' new,
    Handles D clock ⟨TypeId.id (.disp .GetiPodStateInfo), none, .ptr (.disp .GetiPodStateInfo) (0x09, ())⟩ c c' new ∧
    ∃ info, new.map (·.payload) = [.ptr (.disp .RetiPodStateInfo) (0x09, info, ())] ∧ DispStateOK 0x09 info :=
  have ⟨c', new, h⟩ := handles_total D clock _ c
  ⟨c', new, h, C64_state_info ⟨false, [0x03, 0x0C, 0x09], false, none, by decide +kernel⟩ h 0x09 rfl⟩

/-- C64. Track infos of the types 0–8 are answered, with the type asked for and a record of that type; others are not. -/
theorem C64_track_info {σ : Type} {D : Device σ} {clock : Clock} {cmd : Command} {c c' : Ctx σ} {new : List Command}
    (hr : Received cmd) (h : Handles D clock cmd c c' new) (ty : UInt8) (u : SVal [.u32, .u16])
    (hp : cmd.payload = .ptr (.disp .GetIndexedPlayingTrackInfo) (ty, u)) :
    if ty.toNat ≤ 8 then
      ∃ info, new.map (·.payload) = [.ptr (.disp .RetIndexedPlayingTrackInfo) (ty, info, ())] ∧ DispTrackOK ty info
    else new = [] := by
  have hid := (received_wf hr).2 _ _ hp
  have hl : cmd.id.lingoID = 0x03 := by rw [hid]; exact lingoID_id _
  obtain ⟨h1, h2⟩ := h
  have h1 : handleDispRemote clock cmd c = .ret c' := by
    rcases handlePacket_of_lingo h1 with ⟨e, _⟩ | ⟨_, h1⟩ | ⟨e, _⟩ | ⟨e, _⟩ | ⟨e, _⟩
    · rw [hl] at e; cases e
    · exact h1
    · rw [hl] at e; cases e
    · rw [hl] at e; cases e
    · rw [hl] at e; exact absurd e (by decide)
  simp only [handleDispRemote, hp] at h1
  split at h1
  · rename_i hn
    rw [if_neg (dispTrackInfo_none hn)]
    cases h1
    exact out0 h2
  · rename_i info hn
    have key := dispTrackInfo_some hn
    rw [if_pos key.1]
    simp only [respond_eq] at h1
    cases h1
    exact ⟨info, by rw [out1 h2]; rfl, key.2⟩

example {σ : Type} (D : Device σ) (clock : Clock) (c : Ctx σ) : ∃ c' new,
    Handles D clock ⟨TypeId.id (.disp .GetIndexedPlayingTrackInfo), none, .ptr (.disp .GetIndexedPlayingTrackInfo) (0x02, 1, 0, ())⟩ c c' new ∧
    ∃ info, new.map (·.payload) = [.ptr (.disp .RetIndexedPlayingTrackInfo) (0x02, info, ())] ∧ DispTrackOK 0x02 info :=
  have ⟨c', new, h⟩ := handles_total D clock _ c
  ⟨c', new, h, C64_track_info ⟨false, [0x03, 0x12, 0x02, 0, 0, 0, 1, 0, 0], false, none, by decide +kernel⟩ h 0x02 (1, 0, ()) rfl⟩

example : Received ⟨TypeId.id (.gen .IdentifyDeviceLingoes), none,
    .ptr (.gen .IdentifyDeviceLingoes) (0x1D, 2, 0x200, ())⟩ :=
  ⟨true, [0x00, 0x13, 0, 0, 0, 0x1D, 0, 0, 0, 2, 0, 0, 2, 0], false, none, by decide +kernel⟩
example : Received ⟨TypeId.id (.gen .EndIDPS), some 7, .ptr (.gen .EndIDPS) (0x00, ())⟩ :=
  ⟨true, [0x00, 0x3B, 0x00, 0x07, 0x00], true, none, by decide +kernel⟩
example : Received ⟨TypeId.id (.disp .GetiPodStateInfo), none, .ptr (.disp .GetiPodStateInfo) (0x09, ())⟩ :=
  ⟨false, [0x03, 0x0C, 0x09], false, none, by decide +kernel⟩

/-! ## C65 -/

/-- Everything emitted has the right status and is encodable (`Lemmas/Answers.lean`). -/
theorem replies_ok {σ : Type} {D : Device σ} {clock : Clock} {cmd : Command} {c c' : Ctx σ} {new : List Command}
    (hr : Received cmd) (h : Handles D clock cmd c c' new) : ∀ x ∈ new, ReplyOK cmd x := by
  have hw := (received_wf hr).2
  obtain ⟨h1, h2⟩ := h
  rcases handlePacket_of_lingo h1 with ⟨e, h1⟩ | ⟨e, h1⟩ | ⟨e, h1⟩ | ⟨e, h1⟩ | ⟨e, rfl⟩
  · by_cases ha : authComplete cmd.payload = true
    · obtain ⟨c2, new2, e1, e2, _⟩ := handlePacket_emits D clock cmd c
      rw [handlePacket_general _ _ _ _ e] at e1
      rw [h1] at e1; cases e1
      rw [if_pos ⟨e, ha⟩] at e2
      have : new = [audioStartCmd c.counter] ++ new2 := new_unique h2 e2
      subst this
      rw [afterAudio, if_pos ha] at h1
      intro x hx
      rcases List.mem_append.1 hx with hx | hx
      · rw [List.mem_singleton.1 hx]; exact replyOK_fixed rfl (by decide)
      · exact general_replies h1 (by rw [h2]; simp) hw x hx
    · rw [afterAudio, if_neg ha] at h1
      exact general_replies h1 h2 hw
  · exact disp_replies h1 h2 hw
  · exact ext_replies h1 h2 hw
  · exact audio_replies h1 h2
  · rw [out0 h2]; simp

/-- C65. Every acknowledgement carries the status its request deserves. -/
theorem C65_ack_status {σ : Type} {D : Device σ} {clock : Clock} {cmd : Command} {c c' : Ctx σ} {new : List Command}
    (hr : Received cmd) (h : Handles D clock cmd c c' new) (x : Command) (hx : x ∈ new) (s : UInt8)
    (hs : AckStatus x.payload s) : s = ackStatusOf cmd x := (replies_ok hr h x hx).status s hs

example {σ : Type} (D : Device σ) (clock : Clock) (c : Ctx σ) : ∃ c' new, Handles D clock setExtended c c' new ∧
    ∀ x ∈ new, ∀ s, AckStatus x.payload s → s = ackStatusOf setExtended x :=
  have ⟨c', new, h⟩ := handles_total D clock setExtended c
  ⟨c', new, h, fun x hx s hs => C65_ack_status setExtended_received h x hx s hs⟩

example : AckStatus (.ptr (.ext .ACK) (0x02, 0x3B, ())) 0x02 ∧
    ackStatusOf ⟨TypeId.id (.ext .ResetDBSelectionHierarchy), none, .ptr (.ext .ResetDBSelectionHierarchy) (0x01, ())⟩
      ⟨TypeId.id (.ext .ACK), none, .ptr (.ext .ACK) (0x02, 0x3B, ())⟩ = 0x02 := ⟨.extended _ _, by decide +kernel⟩

/-! ## C25 -/

theorem tokens_count {cmd : Command} (hr : Received cmd) {ts : List FIDTokenValue} {u : SVal []}
    (hp : cmd.payload = .ptr (.gen .SetFIDTokenValues) (ts, u)) : ts.length ≤ 255 := by
  obtain ⟨mode, pkt, mode', err, h⟩ := hr
  obtain ⟨h1, h2⟩ := C19_decode_result _ _ _ _ _ h
  cases err with
  | some e =>
    rcases h1 (by simp) with h | ⟨l, k, r, _, h, _⟩
    · rw [hp] at h; cases h
    · rw [h] at hp; cases hp
  | none =>
    obtain ⟨l, k, body, t, v, _, _, _, h3, h4⟩ := h2 rfl
    rw [hp] at h3
    cases h3
    obtain ⟨n, r, _, h4⟩ := (h4 : CountedReads TokenValueReads body ts)
    have : ∀ {n r l}, ListReads TokenValueReads n r l → l.length = n := by
      intro n r l h
      induction h with
      | nil => rfl
      | cons _ _ ih => simp [ih]
    rw [this h4]
    have := n.toNat_lt
    omega

/-- C25 (all tokens of known types). The reply acknowledges every token in order, and the accessory decodes it. Missing:
lists with a token of unknown type, see `C25_unknown_token_lost`. -/
theorem C25_tokens_acked_partial {σ : Type} {D : Device σ} {clock : Clock} {cmd : Command} {c c' : Ctx σ}
    {new : List Command} (hr : Received cmd) (h : Handles D clock cmd c c' new) (ts : List FIDTokenValue) (u : SVal [])
    (hp : cmd.payload = .ptr (.gen .SetFIDTokenValues) (ts, u)) (hk : ∀ t ∈ ts, ¬ UnknownToken t) :
    ∃ x acks b, new = [x] ∧ x.payload = .ptr (.gen .RetFIDTokenValueACKs) (acks, ()) ∧
      EachAcked ts acks ∧ encodePayload x.payload = .ok b ∧
      decodePayload (.gen .RetFIDTokenValueACKs) b = .ret (.ok (acks, ())) := by
  obtain ⟨h1, h2⟩ := h
  have hlen := tokens_count hr hp
  rw [handlePacket_general _ _ _ _ (lingo_of_gen (received_wf hr).2 hp)] at h1
  simp only [afterAudio, hp, authComplete, Bool.false_eq_true, if_false, handleGeneral, respond_eq] at h1
  cases h1
  have hall : EachAcked ts (ackFIDTokenValues ts) := by
    clear hp h2 hlen
    induction ts with
    | nil => exact .nil
    | cons t ts ih =>
      refine .cons ?_ (ih fun x hx => hk x (.tail _ hx))
      have ht := hk t (.head _)
      obtain ⟨id, tok⟩ := t
      cases tok <;> first
        | exact ⟨rfl, _, rfl, rfl⟩
        | exact absurd (.inl ⟨_, rfl⟩) ht
        | exact absurd (.inr rfl) ht
  have hok : ∀ a ∈ ackFIDTokenValues ts, AckOK a := by
    clear hp h2 hlen
    intro a ha
    obtain ⟨t, ht, rfl⟩ := List.mem_map.1 ha
    have ht := hk t ht
    obtain ⟨id, tok⟩ := t
    cases tok <;> first
      | exact ⟨_, rfl, by simp⟩
      | exact absurd (.inl ⟨_, rfl⟩) ht
      | exact absurd (.inr rfl) ht
  obtain ⟨b, hb, hd⟩ := acks_roundtrip (ackFIDTokenValues ts) (by simpa [ackFIDTokenValues] using hlen) hok
  refine ⟨_, _, b, out1 h2, rfl, hall, by simpa [encodePayload, TypeId.marshalBinary] using hb, ?_⟩
  have := hd []
  simp only [List.append_nil] at this
  simp [decodePayload, TypeId.unmarshalBinary, mapVal, this]

example {σ : Type} (D : Device σ) (clock : Clock) (c : Ctx σ) : ∃ c' new,
    Handles D clock ⟨TypeId.id (.gen .SetFIDTokenValues), none, .ptr (.gen .SetFIDTokenValues) ([⟨⟨0, 0⟩, .identify [] 2 0x200⟩], ())⟩ c c' new ∧
    ∃ x acks, new = [x] ∧ x.payload = .ptr (.gen .RetFIDTokenValueACKs) (acks, ()) ∧ EachAcked [⟨⟨0, 0⟩, .identify [] 2 0x200⟩] acks :=
  have ⟨c', new, h⟩ := handles_total D clock _ c
  have ⟨x, acks, _, h1, h2, h3, _⟩ := C25_tokens_acked_partial
    ⟨false, [0x00, 0x39, 1, 11, 0, 0, 0, 0, 0, 0, 2, 0, 0, 2, 0], false, none, by decide +kernel⟩ h _ _ rfl (by simp [UnknownToken])
  ⟨c', new, h, x, acks, h1, h2, h3⟩

/-- C25 fails: one token of unknown type makes the whole reply unencodable. -/
theorem C25_unknown_token_lost {σ : Type} {D : Device σ} {clock : Clock} {cmd : Command} {c c' : Ctx σ}
    {new : List Command} (hr : Received cmd) (h : Handles D clock cmd c c' new) (ts : List FIDTokenValue) (u : SVal [])
    (hp : cmd.payload = .ptr (.gen .SetFIDTokenValues) (ts, u)) (hk : ∃ t ∈ ts, UnknownToken t) :
    ∃ x e, new = [x] ∧ ∀ mode, (marshalCmd mode x).2 = .error e := by
  obtain ⟨h1, h2⟩ := h
  rw [handlePacket_general _ _ _ _ (lingo_of_gen (received_wf hr).2 hp)] at h1
  simp only [afterAudio, hp, authComplete, Bool.false_eq_true, if_false, handleGeneral, respond_eq] at h1
  cases h1
  obtain ⟨e, he⟩ := marshalAcks_unknown hk
  refine ⟨_, e, out1 h2, fun mode => ?_⟩
  rw [marshalCmd_eq]
  simp only [encodePayload, TypeId.marshalBinary, he]

example {σ : Type} (D : Device σ) (clock : Clock) (c : Ctx σ) : ∃ c' new,
    Handles D clock ⟨TypeId.id (.gen .SetFIDTokenValues), none,
      .ptr (.gen .SetFIDTokenValues) ([⟨⟨0, 0⟩, .identify [] 2 0x200⟩, ⟨⟨0, 9⟩, .raw [0x55]⟩], ())⟩ c c' new ∧
    ∃ x e, new = [x] ∧ ∀ mode, (marshalCmd mode x).2 = .error e :=
  have ⟨c', new, h⟩ := handles_total D clock _ c
  ⟨c', new, h, C25_unknown_token_lost ⟨false, [0x00, 0x39, 2, 11, 0, 0, 0, 0, 0, 0, 2, 0, 0, 2, 0, 3, 0x00, 0x09, 0x55], false, none,
    by decide +kernel⟩ h _ _ rfl ⟨⟨⟨0, 9⟩, .raw [0x55]⟩, by simp, .inl ⟨_, rfl⟩⟩⟩

/-- Two tokens: an identify token and one of an unknown type (00 09). -/
def tokensPkt : Bytes := [0x00, 0x39, 2, 11, 0, 0, 0, 0, 0, 0, 2, 0, 0, 2, 0, 3, 0x00, 0x09, 0x55]

example : ∃ ts, Received ⟨TypeId.id (.gen .SetFIDTokenValues), none, .ptr (.gen .SetFIDTokenValues) (ts, ())⟩ ∧
    ∃ t ∈ ts, UnknownToken t :=
  ⟨[⟨⟨0, 0⟩, .identify [] 2 0x200⟩, ⟨⟨0, 9⟩, .raw [0x55]⟩], ⟨false, tokensPkt, false, none, by decide +kernel⟩,
    ⟨⟨0, 9⟩, .raw [0x55]⟩, by simp, .inl ⟨_, rfl⟩⟩
example : ∃ ts, Received ⟨TypeId.id (.gen .SetFIDTokenValues), none, .ptr (.gen .SetFIDTokenValues) (ts, ())⟩ ∧
    ts ≠ [] ∧ ∀ t ∈ ts, ¬ UnknownToken t :=
  ⟨[⟨⟨0, 0⟩, .identify [] 2 0x200⟩], ⟨false, [0x00, 0x39, 1, 11, 0, 0, 0, 0, 0, 0, 2, 0, 0, 2, 0], false, none,
    by decide +kernel⟩, by simp, by simp [UnknownToken]⟩

end Props
