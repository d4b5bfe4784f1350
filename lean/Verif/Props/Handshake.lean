import Verif.Spec.Handshake
import Verif.Props.Fits

/-! # Property C85: identification and authentication of an accessory -/

namespace Props
open Go Spec Ipod Ipod.Hid

theorem conversation_append {σ : Type} {D : Device σ} {clock : Clock} {s s1 s2 : Srv σ} {a b : List (List Bytes)}
    {r1 r2 : List (Except Err Bytes)} (h1 : Conversation D clock s a s1 r1) (h2 : Conversation D clock s1 b s2 r2) :
    Conversation D clock s (a ++ b) s2 (r1 ++ r2) := by
  induction h1 with
  | nil => exact h2
  | cons x y z _ ih => rw [List.append_assoc]; exact .cons x y z (ih h2)

/-- One packet with one command. -/
theorem conversation_one {σ : Type} {D : Device σ} {clock : Clock} {mode m m' : Bool} {ctx c' : Ctx σ} {p : Bytes} {cmd : Command}
    {rs : List (Except Err Bytes)} (h1 : unmarshalCmd mode p = .ret (m, cmd, none))
    (h2 : handlePacket D clock cmd { ctx with out := [] } = .ret c') (h3 : Encoded m c'.out m' rs) :
    Conversation D clock ⟨mode, ctx⟩ [[p]] ⟨m', { c' with out := [] }⟩ rs := by
  have hh : Handles D clock cmd { ctx with out := [] } c' c'.out := ⟨h2, rfl⟩
  have := Conversation.cons (D := D) (clock := clock) (s := ⟨mode, ctx⟩) (ps := [p]) (Decoded.cons h1 .nil) (.cons hh .nil)
    (by simpa using h3) .nil
  simpa using this

theorem decode_var {t : TypeId} (hs : t.size = none) {trx : Option UInt16} {mode : Bool} (hm : trx.isSome = mode) {body : Bytes}
    {v : t.Val} (hd : decodePayload t body = .ret (.ok v)) :
    unmarshalCmd mode (packetOf t.lingo t.cmd trx body) = .ret (mode, ⟨t.id, trx, .ptr t v⟩, none) := by
  have := unmarshalCmd_built mode t trx body v (by rw [lookup_var hs, handleCmdID_var hs, hm]) hd
  rw [handleCmdID_var hs, trxBytes_eq] at this
  exact this

theorem decode_fix {t : TypeId} {n : Nat} (hs : t.size = some n) (hne : t ≠ .gen .ACKDataDropped) (trx : Option UInt16) (mode : Bool)
    {body : Bytes} (hb : body.length = n) {v : t.Val} (hv : decStruct t.schema body = some v) :
    unmarshalCmd mode (packetOf t.lingo t.cmd trx body) = .ret (handleCmdID mode t.id, ⟨t.id, trx, .ptr t v⟩, none) := by
  have := unmarshalCmd_built mode t trx body v (by
    rw [trxBytes_length, hb]
    cases trx with
    | none => simpa using lookup_plain hs hne _
    | some tr =>
      have := lookup_trx hs (handleCmdID mode t.id)
      rw [Nat.add_comm] at this
      simpa using this) (decodePayload_of_dec hs hb hv)
  rw [trxBytes_eq] at this
  exact this

theorem encode_one {t : TypeId} (hsw : ¬ Switches t) (m : Bool) (trx : Option UInt16) {v : t.Val} {b : Bytes}
    (he : encodePayload (.ptr t v) = .ok b) :
    marshalCmd m ⟨t.id, trx, .ptr t v⟩ = (m, .ok (packetOf t.lingo t.cmd (if m then trx else none) b)) := by
  rw [marshalCmd_eq]
  simp only [no_switch hsw, lingoID_id, cmdID_id, he]
  rw [trxBytes_eq]
  rfl

/-- The body of the acknowledgement of tokens of known kinds. -/
theorem acks_body (ts : List FIDTokenValue) (hk : ∀ t ∈ ts, ¬ UnknownToken t) :
    marshalAcks (ackFIDTokenValues ts) = .ok (UInt8.ofNat ts.length :: ts.flatMap tokenAck) := by
  have : marshalList marshalAck (ackFIDTokenValues ts) = .ok (ts.flatMap tokenAck) := by
    induction ts with
    | nil => rfl
    | cons t ts ih =>
      have ih := ih fun x hx => hk x (.tail _ hx)
      have ht := hk t (.head _)
      rw [ackFIDTokenValues] at ih
      obtain ⟨id, tok⟩ := t
      simp only [ackFIDTokenValues, List.map_cons, marshalList, List.flatMap_cons, ih]
      cases tok <;> first
        | rfl
        | exact absurd (.inl ⟨_, rfl⟩) ht
        | exact absurd (.inr rfl) ht
  rw [marshalAcks, this]
  simp [ackFIDTokenValues]

theorem sw_off {t : TypeId} (h : t.id ∉ [(0x00 : UInt32), 0x13, 0x38] := by decide +kernel) : ¬ Switches t := h

/-- The packets of an exchange. -/
def asked (xs : List Exchange) : List (List Bytes) := xs.map fun x => [x.1]

/-- The replies of an exchange. -/
def told (xs : List Exchange) : List (Except Err Bytes) := xs.flatMap fun x => x.2.map .ok

theorem tokens_conversation {σ : Type} {D : Device σ} {clock : Clock} {xs : List Exchange} {ts : List FIDTokenValue}
    (h : TokensSent xs ts) (ctx : Ctx σ) : Conversation D clock ⟨true, { ctx with out := [] }⟩ (asked xs)
      ⟨true, { ctx with dev := ts.foldl D.setToken ctx.dev, out := [] }⟩ (told xs) := by
  induction h generalizing ctx with
  | nil => exact .nil
  | @cons t body ts xs rest h1 h2 _ ih =>
    have hd : decodePayload (.gen .SetFIDTokenValues) body = .ret (.ok (ts, ())) := (decode_gen _ _ _).2 h1
    have h3 := decode_var (t := .gen .SetFIDTokenValues) rfl (trx := some t) (mode := true) rfl hd
    have h4 : handlePacket D clock ⟨TypeId.id (.gen .SetFIDTokenValues), some t, .ptr (.gen .SetFIDTokenValues) (ts, ())⟩
        { ctx with out := [] } = .ret { ctx with dev := ts.foldl D.setToken ctx.dev, out :=
          [⟨TypeId.id (.gen .RetFIDTokenValueACKs), some t, .ptr (.gen .RetFIDTokenValueACKs) (ackFIDTokenValues ts, ())⟩] } := by
      rw [handlePacket_gen _ _ _ _ _ _ rfl]
      simp only [handleGeneral, respond_eq, List.nil_append]
    have h5 := encode_one (t := .gen .RetFIDTokenValueACKs) sw_off true (some t) (v := (ackFIDTokenValues ts, ())) (acks_body ts h2)
    have h6 := conversation_one (ctx := { ctx with out := [] }) h3 h4 (.cons h5 .nil)
    have h7 := ih { ctx with dev := ts.foldl D.setToken ctx.dev }
    have := conversation_append h6 h7
    rw [List.foldl_append]
    exact this

theorem certificate_conversation {σ : Type} {D : Device σ} {clock : Clock} {on : Bool} {own : Option UInt16} {max : UInt8} {i : Nat}
    {xs : List Exchange} {cert : Bytes} (h : CertificateSent on own max i xs cert) (ctx : Ctx σ)
    (hown : own = if on then some (ctx.counter + 1).toUInt16 else none) :
    Conversation D clock ⟨on, { ctx with out := [] }⟩ (asked xs)
      ⟨on, { ctx with dev := D.accAuthCert ctx.dev ((if i = 0 then [] else ctx.certBuf) ++ cert), certBuf :=
        (if i = 0 then [] else ctx.certBuf) ++ cert, counter := ctx.counter + 1, out := [] }⟩ (told xs) := by
  have hdec : ∀ {t : Option UInt16} {major minor cur : UInt8} {data : Bytes}, t.isSome = on → 2 ≤ major.toNat →
      unmarshalCmd on (packetOf 0x00 0x15 t ([major, minor, cur, max] ++ data)) =
        .ret (on, ⟨TypeId.id (.gen .RetDevAuthenticationInfo), t, .ptr (.gen .RetDevAuthenticationInfo) (major, minor, cur, max, data, ())⟩,
          none) := by
    intro t major minor cur data ht hm
    refine decode_var (t := .gen .RetDevAuthenticationInfo) rfl ht ?_
    exact (decode_gen _ _ _).2 (.inl ⟨hm, rfl⟩)
  have hif : ∀ {t : Option UInt16}, t.isSome = on → (if on then t else none) = t := by
    intro t ht
    cases t <;> simp at ht <;> simp [← ht]
  have hcur : ∀ {cur : UInt8} {j : Nat}, cur.toNat = j → (cur = 0 ↔ j = 0) := by
    rintro cur j rfl
    rw [← UInt8.toNat_inj]; rfl
  induction h generalizing ctx with
  | @last t major minor cur data i ht hm hc hi =>
    have hlt : ¬ cur < max := by rw [UInt8.lt_iff_toNat_lt]; omega
    have hge : cur ≥ max := by rw [ge_iff_le, UInt8.le_iff_toNat_le]; omega
    have hmaj : major ≥ 2 := UInt8.le_iff_toNat_le.2 hm
    have hauth : authComplete (.ptr (.gen .RetDevAuthenticationInfo) (major, minor, cur, max, data, ())) = true := by
      simp only [authComplete]
      exact decide_eq_true (.inl ⟨hmaj, hge⟩)
    have e : (if cur = 0 then ([] : Bytes) else ctx.certBuf) = if i = 0 then [] else ctx.certBuf := by
      simp only [hcur hc]
    have h4 : handlePacket D clock ⟨TypeId.id (.gen .RetDevAuthenticationInfo), t,
        .ptr (.gen .RetDevAuthenticationInfo) (major, minor, cur, max, data, ())⟩ { ctx with out := [] } =
        .ret { ctx with dev := D.accAuthCert ctx.dev ((if i = 0 then [] else ctx.certBuf) ++ data), certBuf :=
          (if i = 0 then [] else ctx.certBuf) ++ data, counter := ctx.counter + 1, out :=
          [⟨TypeId.id (.aud .GetAccSampleRateCaps), some (ctx.counter + 1).toUInt16, .ptr (.aud .GetAccSampleRateCaps) ()⟩,
           ⟨TypeId.id (.gen .AckDevAuthenticationInfo), t, .ptr (.gen .AckDevAuthenticationInfo) (0x00, ())⟩,
           ⟨TypeId.id (.gen .GetDevAuthenticationSignatureV2), t,
            .ptr (.gen .GetDevAuthenticationSignatureV2) (⟨List.replicate 20 0, rfl⟩, 0, ())⟩] } := by
      have hl : LingoCmdID.lingoID (TypeId.gen .RetDevAuthenticationInfo).id = 0x00 := lingoID_id (.gen .RetDevAuthenticationInfo)
      rw [handlePacket_general D clock ⟨TypeId.id (.gen .RetDevAuthenticationInfo), t,
        .ptr (.gen .RetDevAuthenticationInfo) (major, minor, cur, max, data, ())⟩ _ hl, general_section _ _ _ _ _ _ _ _ rfl hmaj, if_neg hlt, afterAudio, if_pos hauth]
      simp only [e]
      rfl
    have h5 := conversation_one (ctx := { ctx with out := [] }) (hdec ht hm) h4
      (.cons (encode_one (t := .aud .GetAccSampleRateCaps) sw_off on (some (ctx.counter + 1).toUInt16) (v := ()) rfl)
        (.cons (encode_one (t := .gen .AckDevAuthenticationInfo) sw_off on t (v := (0x00, ())) rfl)
        (.cons (encode_one (t := .gen .GetDevAuthenticationSignatureV2) sw_off on t
          (v := (⟨List.replicate 20 0, rfl⟩, 0, ())) rfl) .nil)))
    rw [hif ht, ← hown] at h5
    exact h5
  | @next t major minor cur data rest i xs ht hm hc hi _ ih =>
    have hlt : cur < max := by rw [UInt8.lt_iff_toNat_lt]; omega
    have hge : ¬ cur ≥ max := by rw [ge_iff_le, UInt8.le_iff_toNat_le]; omega
    have hmaj : major ≥ 2 := UInt8.le_iff_toNat_le.2 hm
    have hauth : authComplete (.ptr (.gen .RetDevAuthenticationInfo) (major, minor, cur, max, data, ())) = false := by
      simp only [authComplete]
      refine decide_eq_false ?_
      rintro (⟨_, h⟩ | h)
      · exact hge h
      · rw [UInt8.lt_iff_toNat_lt] at h
        have : (2 : UInt8).toNat = 2 := rfl
        omega
    have e : (if cur = 0 then ([] : Bytes) else ctx.certBuf) = if i = 0 then [] else ctx.certBuf := by
      simp only [hcur hc]
    have h4 : handlePacket D clock ⟨TypeId.id (.gen .RetDevAuthenticationInfo), t,
        .ptr (.gen .RetDevAuthenticationInfo) (major, minor, cur, max, data, ())⟩ { ctx with out := [] } =
        .ret { ctx with certBuf := (if i = 0 then [] else ctx.certBuf) ++ data, out :=
          [⟨TypeId.id (.gen .ACK), t, .ptr (.gen .ACK) (0x00, 0x15, ())⟩] } := by
      rw [handlePacket_gen D clock .RetDevAuthenticationInfo t _ _ hauth, general_section _ _ _ _ _ _ _ _ rfl hmaj, if_pos hlt]
      simp only [e, show (LingoCmdID.cmdID (TypeId.gen .RetDevAuthenticationInfo).id).toUInt8 = 0x15 by decide +kernel]
      rfl
    have h5 := conversation_one (ctx := { ctx with out := [] }) (hdec ht hm) h4
      (.cons (encode_one (t := .gen .ACK) sw_off on t (v := (0x00, 0x15, ())) rfl) .nil)
    rw [hif ht] at h5
    have h6 := ih { ctx with certBuf := (if i = 0 then [] else ctx.certBuf) ++ data } hown
    have := conversation_append h5 h6
    simp only [Nat.add_one_ne_zero, if_false, List.append_assoc] at this
    exact this

theorem signature_conversation {σ : Type} {D : Device σ} {clock : Clock} {on : Bool} (t : Option UInt16) (ht : t.isSome = on)
    (signature : Bytes) (ctx : Ctx σ) :
    Conversation D clock ⟨on, { ctx with out := [] }⟩ [[packetOf 0x00 0x18 t signature]] ⟨on, { ctx with out := [] }⟩
      [.ok (packetOf 0x00 0x19 t [0x00])] := by
  have h1 := decode_var (t := .gen .RetDevAuthenticationSignature) rfl ht (body := signature) (v := (signature, ())) rfl
  have h2 : handlePacket D clock ⟨TypeId.id (.gen .RetDevAuthenticationSignature), t,
      .ptr (.gen .RetDevAuthenticationSignature) (signature, ())⟩ { ctx with out := [] } = .ret { ctx with out :=
        [⟨TypeId.id (.gen .AckDevAuthenticationStatus), t, .ptr (.gen .AckDevAuthenticationStatus) (0x00, ())⟩] } := by
    rw [handlePacket_gen _ _ _ _ _ _ rfl]
    simp only [handleGeneral, respond_eq, List.nil_append]
  have h3 := conversation_one (ctx := { ctx with out := [] }) h1 h2
    (.cons (encode_one (t := .gen .AckDevAuthenticationStatus) sw_off on t (v := (0x00, ())) rfl) .nil)
  have hif : (if on then t else none) = t := by cases t <;> simp at ht <;> simp [← ht]
  rw [hif] at h3
  exact h3

/-- C85. Whatever happened before, an accessory which identifies and authenticates itself gets exactly the replies of the protocol;
afterwards transactions are on, and the device has been started, given the tokens in order, told the end, and handed the certificate
made of all sections. -/
theorem C85_handshake {σ : Type} (D : Device σ) (clock : Clock) {xs : List Exchange} {ts : List FIDTokenValue} {cert : Bytes}
    (h : Handshake xs ts cert) (s : Srv σ) :
    ∃ s', Conversation D clock s (xs.map fun x => [x.1]) s' (xs.flatMap fun x => x.2.map .ok) ∧ s'.mode = true ∧
      s'.ctx.dev = D.accAuthCert (D.endIDPS (ts.foldl D.setToken (D.startIDPS s.ctx.dev)) 0x00) cert := by
  cases h with
  | @mk t0 t1 t2 max tokens certs ts cert signature h1 h2 =>
    obtain ⟨mode, ctx⟩ := s
    have a1 := decode_fix (t := .gen .StartIDPS) (n := 0) rfl (by simp) (some t0) mode (body := []) rfl (v := ()) rfl
    rw [show handleCmdID mode (TypeId.gen .StartIDPS).id = true by cases mode <;> decide +kernel] at a1
    have a2 : handlePacket D clock ⟨TypeId.id (.gen .StartIDPS), some t0, .ptr (.gen .StartIDPS) ()⟩ { ctx with out := [] } =
        .ret { ctx with counter := 0, dev := D.startIDPS ctx.dev, out :=
          [⟨TypeId.id (.gen .ACK), some t0, .ptr (.gen .ACK) (0x00, 0x38, ())⟩] } := by
      rw [handlePacket_gen _ _ _ _ _ _ rfl]
      simp only [handleGeneral, Ctx.ackSuccess, respond_eq, List.nil_append]
      rfl
    have a3 := conversation_one (ctx := ctx) a1 a2 (.cons (encode_one (t := .gen .ACK) sw_off true (some t0) (v := (0x00, 0x38, ())) rfl) .nil)
    let c1 : Ctx σ := { ctx with counter := 0, dev := D.startIDPS ctx.dev }
    have b1 := tokens_conversation (D := D) (clock := clock) h1 c1
    let c2 : Ctx σ := { c1 with dev := ts.foldl D.setToken c1.dev }
    have d1 := decode_fix (t := .gen .EndIDPS) (n := 1) rfl (by simp) (some t1) true (body := [0x00]) rfl (v := (0x00, ())) (by decide +kernel)
    rw [show handleCmdID true (TypeId.gen .EndIDPS).id = true by decide +kernel] at d1
    have d2 : handlePacket D clock ⟨TypeId.id (.gen .EndIDPS), some t1, .ptr (.gen .EndIDPS) (0x00, ())⟩ { c2 with out := [] } =
        .ret { c2 with counter := 1, dev := D.endIDPS c2.dev 0x00, out :=
          [⟨TypeId.id (.gen .IDPSStatus), some t1, .ptr (.gen .IDPSStatus) (0x00, ())⟩,
           ⟨TypeId.id (.gen .GetDevAuthenticationInfo), some 1, .ptr (.gen .GetDevAuthenticationInfo) ()⟩] } := by
      rw [handlePacket_gen _ _ _ _ _ _ rfl]
      simp only [handleGeneral, respond_eq, List.nil_append, if_true, out_ret_bind, send_eq]
      rfl
    have d3 := conversation_one (ctx := { c2 with out := [] }) d1 d2 (.cons (encode_one (t := .gen .IDPSStatus) sw_off true (some t1) (v := (0x00, ())) rfl)
      (.cons (encode_one (t := .gen .GetDevAuthenticationInfo) sw_off true (some 1) (v := ()) rfl) .nil))
    let c3 : Ctx σ := { c2 with counter := 1, dev := D.endIDPS c2.dev 0x00 }
    have e1 := certificate_conversation (D := D) (clock := clock) h2 c3 rfl
    let c4 : Ctx σ := { c3 with dev := D.accAuthCert c3.dev cert, certBuf := cert, counter := 2 }
    have f1 := signature_conversation (D := D) (clock := clock) (some t2) rfl signature c4
    refine ⟨⟨true, { c4 with out := [] }⟩, ?_, rfl, rfl⟩
    simp only [List.map_append, List.flatMap_append]
    exact conversation_append (conversation_append (conversation_append (conversation_append a3 b1) d3) e1) f1

/-- C85. The same for an accessory which identifies itself by its lingoes, without transactions; afterwards transactions are off, and
the device has been handed the certificate. -/
theorem C85_old_handshake {σ : Type} (D : Device σ) (clock : Clock) {xs : List Exchange} {cert : Bytes} (h : OldHandshake xs cert)
    (s : Srv σ) :
    ∃ s', Conversation D clock s (xs.map fun x => [x.1]) s' (xs.flatMap fun x => x.2.map .ok) ∧ s'.mode = false ∧
      s'.ctx.dev = D.accAuthCert s.ctx.dev cert := by
  cases h with
  | @mk lingoes options device number max certs cert signature hl ho hd hne h2 =>
    obtain ⟨mode, ctx⟩ := s
    have hb : (lingoes ++ options ++ device).length = 12 := by simp [hl, ho, hd.1]
    obtain ⟨v, hv⟩ := decStruct_isSome (fs := (TypeId.gen .IdentifyDeviceLingoes).schema) (n := 12) rfl (lingoes ++ options ++ device)
      (by omega)
    obtain ⟨v1, v2, v3, u⟩ := v
    have hv3 : v3 ≠ 0 := by
      intro e
      have he : Begins (TypeId.gen .IdentifyDeviceLingoes).schema (v1, v2, v3, u) (lingoes ++ options ++ device) :=
        (decode_gen .IdentifyDeviceLingoes _ _).1 (decodePayload_of_dec rfl hb hv)
      obtain ⟨b, rest, e1, hs⟩ := he
      cases hs with
      | @cons _ _ _ _ b1 _ r1 hs =>
        cases hs with
        | @cons _ _ _ _ b2 _ r2 hs =>
          cases hs with
          | @cons _ _ _ _ b3 _ r3 hs =>
            cases hs
            have l1 : b1.length = 4 := r1.1
            have l2 : b2.length = 4 := r2.1
            have l3 : b3.length = 4 := r3.1
            rw [List.append_nil, List.append_assoc, List.append_assoc, List.append_assoc] at e1
            obtain ⟨_, e1⟩ := List.append_inj e1 (by omega)
            obtain ⟨_, e1⟩ := List.append_inj e1 (by omega)
            have e1' : device ++ [] = b3 ++ rest := by rw [List.append_nil]; exact e1
            obtain ⟨rfl, _⟩ := List.append_inj e1' (by rw [hd.1]; omega)
            have : beVal device = v3.toNat := r3.2
            rw [e, hd.2] at this
            exact hne this
    have a1 := decode_fix (t := .gen .IdentifyDeviceLingoes) (n := 12) rfl (by simp) none mode hb hv
    rw [show handleCmdID mode (TypeId.gen .IdentifyDeviceLingoes).id = false by cases mode <;> decide +kernel] at a1
    have a2 : handlePacket D clock ⟨TypeId.id (.gen .IdentifyDeviceLingoes), none, .ptr (.gen .IdentifyDeviceLingoes) (v1, v2, v3, u)⟩
        { ctx with out := [] } = .ret { ctx with out :=
          [⟨TypeId.id (.gen .ACK), none, .ptr (.gen .ACK) (0x00, 0x13, ())⟩,
           ⟨TypeId.id (.gen .GetDevAuthenticationInfo), none, .ptr (.gen .GetDevAuthenticationInfo) ()⟩] } := by
      rw [handlePacket_gen _ _ _ _ _ _ rfl]
      simp only [handleGeneral, Ctx.ackSuccess, respond_eq, List.nil_append, out_ret_bind]
      rw [if_pos hv3]
      simp only [show (LingoCmdID.cmdID (TypeId.gen .IdentifyDeviceLingoes).id).toUInt8 = 0x13 by decide +kernel]
      rfl
    have a3 := conversation_one (ctx := ctx) a1 a2 (.cons (encode_one (t := .gen .ACK) sw_off false none (v := (0x00, 0x13, ())) rfl)
      (.cons (encode_one (t := .gen .GetDevAuthenticationInfo) sw_off false none (v := ()) rfl) .nil))
    have e1 := certificate_conversation (D := D) (clock := clock) h2 ctx rfl
    let c4 : Ctx σ := { ctx with dev := D.accAuthCert ctx.dev cert, certBuf := cert, counter := ctx.counter + 1 }
    have f1 := signature_conversation (D := D) (clock := clock) none rfl signature c4
    refine ⟨⟨false, { c4 with out := [] }⟩, ?_, rfl, rfl⟩
    simp only [List.map_append, List.flatMap_append]
    exact conversation_append (conversation_append a3 e1) f1

/-- Exchanges over HID reports in both directions. -/
theorem exchanges_over_reports {σ : Type} (D : Device σ) (clock : Clock) (grow grow' : Growth) (defs defs' : List ReportDef)
    (hg : GoodTable defs) (hg' : GoodTable defs') (hmax : ∀ d ∈ defs, d.maxPayload ≤ 1022) (hmax' : ∀ d ∈ defs', d.maxPayload ≤ 1022)
    (s s' : Srv σ) (xs : List Exchange) (requests : List (List Report)) (hl : requests.length = xs.length)
    (hr : ∀ x ∈ xs.zip requests, Sendable x.1.1 ∧ Written defs (writePacket newPacketWriter x.1.1).1 x.2)
    (hc : Conversation D clock s (xs.map fun x => [x.1]) s' (xs.flatMap fun x => x.2.map .ok))
    (hrep : ∀ x ∈ xs, ∀ r ∈ x.2, r.length ≤ 65535 ∧ r.length ≠ 256) :
    ∃ w, serve D clock grow defs (requests.flatMap arriving) s = .ret (s', w) ∧ w.length = (xs.flatMap (·.2)).length ∧
      ∀ back : List (List Report), back.length = w.length → (∀ x ∈ w.zip back, Written defs' x.1 x.2) → ∀ buf,
        receive grow' defs' ((xs.flatMap (·.2)).map fun _ => 2) (back.flatMap arriving) buf =
          .ret ((xs.flatMap (·.2)).map fun p => .ok [.ok p, .error .eof]) := by
  have hs : ∀ p ∈ (xs.zip requests).map (fun x => (([x.1.1], x.2) : List Bytes × List Report)), SentAs defs p := by
    intro p hp
    obtain ⟨y, hy, rfl⟩ := List.mem_map.1 hp
    obtain ⟨h2, h4⟩ := hr y hy
    exact ⟨by simp, by simpa using h2, h4⟩
  have ef : ((xs.zip requests).map (fun x => (([x.1.1], x.2) : List Bytes × List Report))).flatMap (fun p => arriving p.2) =
      requests.flatMap arriving := by
    rw [List.flatMap_map, ← List.flatMap_map (f := fun x : Exchange × List Report => x.2) (g := arriving), List.map_snd_zip (by omega)]
  have em : ((xs.zip requests).map (fun x => (([x.1.1], x.2) : List Bytes × List Report))).map (·.1) = xs.map fun x => [x.1] := by
    rw [List.map_map, show ((fun x : List Bytes × List Report => x.1) ∘ fun x : Exchange × List Report => ([x.1.1], x.2)) =
      (fun x : Exchange => [x.1]) ∘ Prod.fst from rfl, ← List.map_map, List.map_fst_zip (by omega)]
  have hserve := (serve_conversation (D := D) (clock := clock) (grow := grow) hg hmax _ hs s s' _).2 ⟨_, by rw [em]; exact hc, rfl⟩
  obtain ⟨rs, hc', hrec⟩ := C78_session_partial D clock grow grow' defs defs' hg hg' hmax hmax' _ hs s s' _ hserve
  rw [em] at hc'
  obtain ⟨_, rfl⟩ := C78_conversation_unique hc hc'
  have e : (xs.flatMap fun x => x.2.map (Except.ok : Bytes → Except Err Bytes)).filterMap Except.toOption = xs.flatMap (·.2) := by
    clear hs ef em hserve hrec hc' hc hrep hr hl
    induction xs with
    | nil => rfl
    | cons x xs ih =>
      rw [List.flatMap_cons, List.filterMap_append, ih, List.flatMap_cons]
      congr 1
      generalize x.2 = l
      induction l with
      | nil => rfl
      | cons y l ih => rw [List.map_cons, List.filterMap_cons]; simp only [Except.toOption]; rw [ih]
  rw [ef] at hserve
  refine ⟨_, hserve, ?_, fun back hb1 hb2 buf => ?_⟩
  · simp [List.length_flatMap]
  · rw [← e]
    refine hrec ?_ back hb1 hb2 buf
    intro p hp
    obtain ⟨x, hx, hp⟩ := List.mem_flatMap.1 hp
    obtain ⟨r, hm, he⟩ := List.mem_map.1 hp
    cases he
    exact hrep x hx p hm

theorem packetOf_length (l : UInt8) (k : UInt16) (t : Option UInt16) (b : Bytes) : (packetOf l k t b).length ≤ 5 + b.length := by
  have h1 : (idBytes l k).length ≤ 3 := by unfold idBytes; split <;> simp
  have h2 : (transactionBytes t).length ≤ 2 := by cases t <;> simp [transactionBytes]
  simp only [packetOf, List.length_append]
  omega

theorem tokens_replies {xs : List Exchange} {ts : List FIDTokenValue} (h : TokensSent xs ts) :
    ∀ x ∈ xs, ∀ r ∈ x.2, r.length ≤ 1281 := by
  induction h with
  | nil => simp
  | @cons t body ts xs rest h1 _ _ ih =>
    intro x hx r hr
    rcases List.mem_cons.1 hx with rfl | hx
    · rw [List.mem_singleton.1 hr]
      obtain ⟨n, d, _, h1⟩ := h1
      have hn : ts.length ≤ 255 := by
        have : ∀ {n r l}, ListReads TokenValueReads n r l → l.length = n := by
          intro n r l h
          induction h with
          | nil => rfl
          | cons _ _ ih => simp [ih]
        rw [this h1]
        have := n.toNat_lt
        omega
      have hf : ∀ l : List FIDTokenValue, (l.flatMap tokenAck).length ≤ 5 * l.length := by
        intro l
        induction l with
        | nil => simp
        | cons a l ih =>
          have : (tokenAck a).length ≤ 5 := by unfold tokenAck; split <;> simp
          rw [List.flatMap_cons, List.length_append, List.length_cons]
          omega
      have := packetOf_length 0x00 0x3A (some t) (UInt8.ofNat ts.length :: ts.flatMap tokenAck)
      have := hf ts
      simp only [List.length_cons] at *
      omega
    · exact ih x hx r hr

theorem certificate_replies {on : Bool} {own : Option UInt16} {max : UInt8} {i : Nat} {xs : List Exchange} {cert : Bytes}
    (h : CertificateSent on own max i xs cert) : ∀ x ∈ xs, ∀ r ∈ x.2, r.length ≤ 26 := by
  induction h with
  | last =>
    simp only [List.forall_mem_cons, List.not_mem_nil, false_imp_iff, implies_true, and_true]
    refine ⟨?_, ?_, ?_⟩ <;> exact Nat.le_trans (packetOf_length _ _ _ _) (by simp)
  | next _ _ _ _ _ ih =>
    simp only [List.forall_mem_cons, List.not_mem_nil, false_imp_iff, implies_true, and_true]
    exact ⟨Nat.le_trans (packetOf_length _ _ _ _) (by simp), ih⟩

theorem handshake_replies {xs : List Exchange} {ts : List FIDTokenValue} {cert : Bytes} (h : Handshake xs ts cert) :
    ∀ x ∈ xs, ∀ r ∈ x.2, r.length ≤ 65535 := by
  cases h with
  | mk h1 h2 =>
    have a := tokens_replies h1
    have b := certificate_replies h2
    intro x hx
    simp only [List.mem_append, List.mem_singleton] at hx
    rcases hx with (((rfl | hx) | rfl) | hx) | rfl
    · simp only [List.forall_mem_cons, List.not_mem_nil, false_imp_iff, implies_true, and_true]
      exact Nat.le_trans (packetOf_length _ _ _ _) (by simp)
    · intro r hr
      exact Nat.le_trans (a x hx r hr) (by omega)
    · simp only [List.forall_mem_cons, List.not_mem_nil, false_imp_iff, implies_true, and_true]
      exact ⟨Nat.le_trans (packetOf_length _ _ _ _) (by simp), Nat.le_trans (packetOf_length _ _ _ _) (by simp)⟩
    · intro r hr
      exact Nat.le_trans (b x hx r hr) (by omega)
    · simp only [List.forall_mem_cons, List.not_mem_nil, false_imp_iff, implies_true, and_true]
      exact Nat.le_trans (packetOf_length _ _ _ _) (by simp)

/-- C85, the emulated iPod over HID. In any state, an accessory which identifies and authenticates itself, a report frame for each
packet, receives exactly the replies of the protocol, one per frame; afterwards the iPod holds its tokens. Missing: packets which the
packet writer spoils, i.e. requests or token acknowledgements of 256 bytes. -/
theorem C85_over_reports_partial (clock : Clock) (grow grow' : Growth) (defs defs' : List ReportDef) (hg : GoodTable defs)
    (hg' : GoodTable defs') (hmax : ∀ d ∈ defs, d.maxPayload ≤ 1022) (hmax' : ∀ d ∈ defs', d.maxPayload ≤ 1022) (s : Srv DevGeneral)
    {xs : List Exchange} {ts : List FIDTokenValue} {cert : Bytes} (h : Handshake xs ts cert) (requests : List (List Report))
    (hl : requests.length = xs.length)
    (hr : ∀ x ∈ xs.zip requests, Sendable x.1.1 ∧ Written defs (writePacket newPacketWriter x.1.1).1 x.2)
    (hrep : ∀ x ∈ xs, ∀ r ∈ x.2, r.length ≠ 256) :
    ∃ s' w, serve devGeneral clock grow defs (requests.flatMap arriving) s = .ret (s', w) ∧ s'.mode = true ∧
      s'.ctx.dev = { s.ctx.dev with tokens := ts } ∧
      ∀ back : List (List Report), back.length = w.length → (∀ x ∈ w.zip back, Written defs' x.1 x.2) → ∀ buf,
        receive grow' defs' ((xs.flatMap (·.2)).map fun _ => 2) (back.flatMap arriving) buf =
          .ret ((xs.flatMap (·.2)).map fun p => .ok [.ok p, .error .eof]) := by
  obtain ⟨s', h1, h2, h3⟩ := C85_handshake devGeneral clock h s
  obtain ⟨w, g1, _, g3⟩ := exchanges_over_reports devGeneral clock grow grow' defs defs' hg hg' hmax hmax' s s' xs requests hl hr h1
    fun x hx r hm => ⟨handshake_replies h x hx r hm, hrep x hx r hm⟩
  refine ⟨s', w, g1, h2, ?_, g3⟩
  rw [h3, foldl_setToken]
  simp [devGeneral]

/-- C85, the same for an accessory which identifies itself by its lingoes. Missing: requests of 256 bytes. -/
theorem C85_old_over_reports_partial (clock : Clock) (grow grow' : Growth) (defs defs' : List ReportDef) (hg : GoodTable defs)
    (hg' : GoodTable defs') (hmax : ∀ d ∈ defs, d.maxPayload ≤ 1022) (hmax' : ∀ d ∈ defs', d.maxPayload ≤ 1022) (s : Srv DevGeneral)
    {xs : List Exchange} {cert : Bytes} (h : OldHandshake xs cert) (requests : List (List Report))
    (hl : requests.length = xs.length)
    (hr : ∀ x ∈ xs.zip requests, Sendable x.1.1 ∧ Written defs (writePacket newPacketWriter x.1.1).1 x.2) :
    ∃ s' w, serve devGeneral clock grow defs (requests.flatMap arriving) s = .ret (s', w) ∧ s'.mode = false ∧
      s'.ctx.dev = s.ctx.dev ∧
      ∀ back : List (List Report), back.length = w.length → (∀ x ∈ w.zip back, Written defs' x.1 x.2) → ∀ buf,
        receive grow' defs' ((xs.flatMap (·.2)).map fun _ => 2) (back.flatMap arriving) buf =
          .ret ((xs.flatMap (·.2)).map fun p => .ok [.ok p, .error .eof]) := by
  obtain ⟨s', h1, h2, h3⟩ := C85_old_handshake devGeneral clock h s
  obtain ⟨w, g1, _, g3⟩ := exchanges_over_reports devGeneral clock grow grow' defs defs' hg hg' hmax hmax' s s' xs requests hl hr h1 (by
    cases h with
    | mk _ _ _ _ hc =>
      have b := certificate_replies hc
      intro x hx
      suffices ∀ r ∈ x.2, r.length ≤ 26 from fun r hr => by have := this r hr; omega
      simp only [List.mem_append, List.mem_singleton] at hx
      rcases hx with (rfl | hx) | rfl
      · simp only [List.forall_mem_cons, List.not_mem_nil, false_imp_iff, implies_true, and_true]
        exact ⟨Nat.le_trans (packetOf_length _ _ _ _) (by simp), Nat.le_trans (packetOf_length _ _ _ _) (by simp)⟩
      · exact b x hx
      · simp only [List.forall_mem_cons, List.not_mem_nil, false_imp_iff, implies_true, and_true]
        exact Nat.le_trans (packetOf_length _ _ _ _) (by simp))
  exact ⟨s', w, g1, h2, h3, g3⟩

/-- `C85_old_handshake` for an accessory with a certificate in one section. -/
example {σ : Type} (D : Device σ) (clock : Clock) (s : Srv σ) : ∃ s', Conversation D clock s
    [[[0x00, 0x13, 0, 0, 0, 5, 0, 0, 0, 2, 0, 0, 2, 0]], [[0x00, 0x15, 2, 0, 0, 0, 7, 8]], [[0x00, 0x18, 9]]] s'
    [.ok [0x00, 0x02, 0x00, 0x13], .ok [0x00, 0x14], .ok [0x0A, 0x02], .ok [0x00, 0x16, 0x00],
      .ok [0x00, 0x17, 0, 0, 0, 0, 0, 0, 0, 0, 0, 0, 0, 0, 0, 0, 0, 0, 0, 0, 0, 0, 0], .ok [0x00, 0x19, 0x00]] ∧ s'.mode = false ∧
    s'.ctx.dev = D.accAuthCert s.ctx.dev [7, 8] :=
  C85_old_handshake D clock (xs := [([0x00, 0x13, 0, 0, 0, 5, 0, 0, 0, 2, 0, 0, 2, 0], [[0x00, 0x02, 0x00, 0x13], [0x00, 0x14]]),
      ([0x00, 0x15, 2, 0, 0, 0, 7, 8], [[0x0A, 0x02], [0x00, 0x16, 0x00],
        [0x00, 0x17, 0, 0, 0, 0, 0, 0, 0, 0, 0, 0, 0, 0, 0, 0, 0, 0, 0, 0, 0, 0, 0]]),
      ([0x00, 0x18, 9], [[0x00, 0x19, 0x00]])])
    (.mk (lingoes := [0, 0, 0, 5]) (options := [0, 0, 0, 2]) (device := [0, 0, 2, 0]) (number := 512) (max := 0) (signature := [9]) rfl rfl
      ⟨rfl, by decide⟩ (by decide) (.last (t := none) (major := 2) (minor := 0) (cur := 0) rfl (by decide) rfl rfl)) s

/-- A handshake: an identify token and an accessory info, a certificate of two sections, a signature. -/
example : ∃ xs, Handshake xs [⟨⟨0, 0⟩, .identify [] 2 0x200⟩, ⟨⟨0, 2⟩, .accInfo 0x01 (some [0x61, 0x00])⟩] [1, 2, 3, 4, 5] ∧
    xs.length = 6 ∧ xs[1]? = some ([0x00, 0x39, 0x00, 0x02, 2, 11, 0, 0, 0, 0, 0, 0, 2, 0, 0, 2, 0, 5, 0, 2, 1, 0x61, 0],
      [[0x00, 0x3A, 0x00, 0x02, 2, 3, 0, 0, 0, 4, 0, 2, 0, 1]]) ∧
    xs[2]? = some ([0x00, 0x3B, 0x00, 0x03, 0x00], [[0x00, 0x3C, 0x00, 0x03, 0x00], [0x00, 0x14, 0x00, 0x01]]) := by
  refine ⟨_, .mk (t0 := 1) (t1 := 3) (t2 := 6) (max := 1) (ts := [⟨⟨0, 0⟩, .identify [] 2 0x200⟩,
    ⟨⟨0, 2⟩, .accInfo 0x01 (some [0x61, 0x00])⟩] ++ []) (certificate := [1, 2, 3] ++ [4, 5]) (signature := [9, 9])
    (.cons (t := 2) (body := [2, 11, 0, 0, 0, 0, 0, 0, 2, 0, 0, 2, 0, 5, 0, 2, 1, 0x61, 0]) ?_ ?_ .nil)
    (.next (t := some 4) (major := 2) (minor := 0) (cur := 0) rfl (by decide) rfl (by decide)
      (.last (t := some 5) (major := 2) (minor := 0) (cur := 1) rfl (by decide) rfl (by decide))), rfl, rfl, rfl⟩
  · have : decodePayload (.gen .SetFIDTokenValues) [2, 11, 0, 0, 0, 0, 0, 0, 2, 0, 0, 2, 0, 5, 0, 2, 1, 0x61, 0] =
        .ret (.ok ([⟨⟨0, 0⟩, .identify [] 2 0x200⟩, ⟨⟨0, 2⟩, .accInfo 0x01 (some [0x61, 0x00])⟩], ())) := by decide +kernel
    exact (decode_gen _ _ _).1 this
  · simp [UnknownToken]

/-- An old handshake, with a certificate of one section. -/
example : OldHandshake [([0x00, 0x13, 0, 0, 0, 5, 0, 0, 0, 2, 0, 0, 2, 0], [[0x00, 0x02, 0x00, 0x13], [0x00, 0x14]]),
    ([0x00, 0x15, 2, 0, 0, 0, 7, 8], [[0x0A, 0x02], [0x00, 0x16, 0x00],
      [0x00, 0x17, 0, 0, 0, 0, 0, 0, 0, 0, 0, 0, 0, 0, 0, 0, 0, 0, 0, 0, 0, 0, 0]]),
    ([0x00, 0x18, 9], [[0x00, 0x19, 0x00]])] [7, 8] :=
  .mk (lingoes := [0, 0, 0, 5]) (options := [0, 0, 0, 2]) (device := [0, 0, 2, 0]) (number := 512) (max := 0) (signature := [9]) rfl rfl
    ⟨rfl, by decide⟩ (by decide) (.last (t := none) (major := 2) (minor := 0) (cur := 0) rfl (by decide) rfl rfl)

end Props
