import Verif.Lemmas.Decode
import Verif.Spec.Serde

/-! # Properties C14–C19: the command serializer -/

namespace Props
open Go Spec Ipod

theorem trxBytes_eq (t : Option UInt16) : trxBytes t = transactionBytes t := by
  cases t with
  | none => rfl
  | some t =>
    simp only [trxBytes, transactionBytes, FTy.enc, beEnc]
    have h := t.toNat_lt
    simp
    apply UInt8.toNat_inj.1
    simp

theorem switch_eq (m : Bool) (id : UInt32) : handleCmdID m id = (switchOfId id).getD m := by
  have e0 : idOf 0x00 0x00 = 0x00 := by decide +kernel
  have e1 : idOf 0x00 0x13 = 0x13 := by decide +kernel
  have e2 : idOf 0x00 0x38 = 0x38 := by decide +kernel
  rw [handleCmdID_eq, switchOfId, e0, e1, e2]
  by_cases h0 : id = 0 <;> by_cases h1 : id = 0x13 <;> by_cases h2 : id = 0x38 <;> simp_all

/-! ## C14 -/

/-- C14 (all messages but `ACKDataDropped` sent without transaction). A message with fixed-size fields only, built with
`BuildCommand`, with any transaction, from a serializer in any mode to a serializer in any mode. `sent` is the
transaction that is sent: present iff the sender's mode (after the command itself) is on. -/
theorem C14_fixed_roundtrip_partial (t : TypeId) (n : Nat) (h : FixedSize t.schema n) (v : t.Val)
    (trx : Option UInt16) (m m' : Bool) (sent : Option UInt16)
    (hs : sent = if (switchOfId ((registry.lookupID t).getD 0)).getD m then trx else none)
    (hx : ¬ (t = .gen .ACKDataDropped ∧ sent = none)) :
    ∃ cmd pkt m2 m3, buildCommand (.ptr t v) = .ret (.ok cmd) ∧
      marshalCmd m { cmd with trx := trx } = (m2, .ok pkt) ∧
      unmarshalCmd m' pkt = .ret (m3, { cmd with trx := sent }, none) ∧
      cmd.payload = .ptr t v ∧ registry.lookupID t = some cmd.id := by
  rw [lookupID_eq, Option.getD_some, ← switch_eq] at hs
  have hn : t.size = some n := (structSize_iff _ _).2 h
  obtain ⟨pkt, h1, h2⟩ := fixed_command_roundtrip hn v trx m m' (by rw [sentTrx, ← hs]; exact hx)
  rw [sentTrx, ← hs] at h2
  exact ⟨_, pkt, _, _, buildCommand_ptr t v, h1, h2, rfl, lookupID_eq t⟩

example : ∃ cmd pkt m2 m3, buildCommand (.ptr (.gen .ReturniPodSoftwareVersion) (1, 2, 3, ())) = .ret (.ok cmd) ∧
    marshalCmd true { cmd with trx := some 7 } = (m2, .ok pkt) ∧ unmarshalCmd false pkt = .ret (m3, { cmd with trx := some 7 }, none) :=
  have ⟨cmd, pkt, m2, m3, h1, h2, h3, _⟩ := C14_fixed_roundtrip_partial (.gen .ReturniPodSoftwareVersion) 3 ((structSize_iff _ _).1 rfl)
    (1, 2, 3, ()) (some 7) true false (some 7) (by decide +kernel) (by simp)
  ⟨cmd, pkt, m2, m3, h1, h2, h3⟩

/-- C14, the exception: `ACKDataDropped` sent without a transaction is received as `ACKPending` with a transaction made
of its first two bytes. -/
theorem C14_dropped_ack_not_roundtrip :
    ∃ (t : TypeId) (n : Nat) (v : t.Val) (cmd : Command) (pkt : Bytes) (got : Command),
      FixedSize t.schema n ∧ buildCommand (.ptr t v) = .ret (.ok cmd) ∧
      marshalCmd false cmd = (false, .ok pkt) ∧ unmarshalCmd false pkt = .ret (false, got, none) ∧ got ≠ cmd := by
  refine ⟨.gen .ACKDataDropped, 8, (0x01, 0x02, 0x0304, 0x05060708, ()), ?_⟩
  refine ⟨_, [0x00, 0x02, 0x01, 0x02, 0x03, 0x04, 0x05, 0x06, 0x07, 0x08],
    ⟨2, some 0x0102, .ptr (.gen .ACKPending) (0x03, 0x04, 0x05060708, ())⟩,
    (structSize_iff _ _).1 rfl, buildCommand_ptr _ _, ?_⟩
  decide +kernel

example : FixedSize (TypeId.schema (.gen .ReturniPodSoftwareVersion)) 3 := (structSize_iff _ _).1 rfl
/-- A request with a transaction while transactions are on. -/
example : marshalCmd true ⟨0x00000F, some 0x1234, .ptr (.gen .RequestLingoProtocolVersion) (0x0A, ())⟩ =
    (true, .ok [0x00, 0x0F, 0x12, 0x34, 0x0A]) := by decide +kernel

/-! ## C15 -/

/-- C15 (all but text infos of `RetIndexedPlayingTrackInfo`). Messages with their own codec. -/
theorem C15_var_roundtrip_partial (t : TypeId) (v : t.Val) (h : VarOK t v) (hx : ¬ IsTrackText t v)
    (trx : Option UInt16) (m : Bool) (hm : trx.isSome = m) :
    ∃ cmd pkt, buildCommand (.ptr t v) = .ret (.ok cmd) ∧
      marshalCmd m { cmd with trx := trx } = (m, .ok pkt) ∧
      unmarshalCmd m pkt = .ret (m, { cmd with trx := trx }, none) ∧
      cmd.payload = .ptr t v ∧ registry.lookupID t = some cmd.id := by
  obtain ⟨pkt, h1, h2⟩ := var_command_roundtrip h hx trx m (by intro h; rw [hm, h])
  refine ⟨_, pkt, buildCommand_ptr t v, h1, ?_, rfl, lookupID_eq t⟩
  rw [h2]
  simp only [sentTrx]
  cases trx with
  | none => simp
  | some x => simp at hm; simp [← hm]

example : ∃ cmd pkt, buildCommand (.ptr (.gen .ReturniPodName) ([0x69, 0x00], ())) = .ret (.ok cmd) ∧
    marshalCmd true { cmd with trx := some 7 } = (true, .ok pkt) ∧ unmarshalCmd true pkt = .ret (true, { cmd with trx := some 7 }, none) :=
  have ⟨cmd, pkt, h1, h2, h3, _⟩ := C15_var_roundtrip_partial (.gen .ReturniPodName) ([0x69, 0x00], ()) (.name _) (fun h => h) (some 7) true rfl
  ⟨cmd, pkt, h1, h2, h3⟩

/-- C15, the exception: a display-remote track title loses its text and is refused by the receiver. -/
theorem C15_track_text_not_roundtrip (m : Bool) (ty : UInt8) (i : DispTrack) (h : DispTrackOK ty i)
    (ht : ¬ DispTrackFixed i) (trx : Option UInt16) (hm : trx.isSome = m) :
    ∃ pkt id, marshalCmd m ⟨id, trx, .ptr (.disp .RetIndexedPlayingTrackInfo) (ty, i, ())⟩ = (m, .ok pkt) ∧
      registry.lookupID (.disp .RetIndexedPlayingTrackInfo) = some id ∧
      unmarshalCmd m pkt = .ret (m, ⟨id, trx, .nil⟩, some Err.invalidType) := by
  obtain ⟨h1, h2⟩ := dispTrack_text ty i h ht
  refine ⟨idBytes 0x03 0x13 ++ trxBytes (sentTrx m trx) ++ [ty], TypeId.id (.disp .RetIndexedPlayingTrackInfo), ?_,
    lookupID_eq _, ?_⟩
  · rw [marshalCmd_eq]
    simp only [handleCmdID_var (t := .disp .RetIndexedPlayingTrackInfo) rfl, encodePayload,
      TypeId.marshalBinary, h1]
    rfl
  · have hst : sentTrx m trx = trx := by
      cases trx with
      | none => simp [sentTrx]
      | some x => simp at hm; simp [sentTrx, ← hm]
    rw [hst]
    rw [unmarshalCmd, List.append_assoc, unmarshalLingoCmdID_idBytes _ _ (.inr (by decide))]
    simp only
    rw [show idOf 0x03 0x13 = TypeId.id (.disp .RetIndexedPlayingTrackInfo) from by decide +kernel,
      lookup_var rfl, handleCmdID_var rfl]
    have hd : decodePayload (.disp .RetIndexedPlayingTrackInfo) [ty] = .ret (.error Err.invalidType) := by
      simp [decodePayload, TypeId.unmarshalBinary, h2]
    cases trx with
    | none =>
      simp at hm; subst hm
      simp only [trxBytes, List.nil_append, hd, Out.bind_ret]
    | some x =>
      simp at hm; subst hm
      simp only [trxBytes, binRead_u16_enc, hd, Out.bind_ret]

example : ∃ pkt id, marshalCmd false ⟨id, none, .ptr (.disp .RetIndexedPlayingTrackInfo) (0x05, .track [0x41, 0x00], ())⟩ = (false, .ok pkt) ∧
    registry.lookupID (.disp .RetIndexedPlayingTrackInfo) = some id ∧
    unmarshalCmd false pkt = .ret (false, ⟨id, none, .nil⟩, some Err.invalidType) :=
  C15_track_text_not_roundtrip false 0x05 (.track [0x41, 0x00]) rfl (fun h => h) none rfl

example : VarOK (.gen .ReturniPodName) ([0x69, 0x50, 0x6F, 0x64, 0x00], ()) := .name _
example : VarOK (.gen .SetFIDTokenValues) ([⟨⟨0, 1⟩, .accCaps 0x203⟩, ⟨⟨0, 0⟩, .identify [0, 4, 10] 2 0x200⟩], ()) :=
  .tokens _ (by decide) (by simp [TokenOK])
example : ¬ IsTrackText (.gen .ReturniPodName) ([0x69, 0x00], ()) := fun h => h
example : DispTrackOK 0x05 (.track [0x41, 0x00]) ∧ ¬ DispTrackFixed (.track [0x41, 0x00]) := ⟨rfl, fun h => h⟩

/-! ## C16 -/

/-- The serializer's mode after a history of uses. -/
def runSerde (m : Bool) : List SerdeOp → Out Bool
  | [] => .ret m
  | .send cmd :: ops => runSerde (marshalCmd m cmd).1 ops
  | .receive pkt :: ops => unmarshalCmd m pkt >>= fun r => runSerde r.1 ops

theorem marshal_mode (m : Bool) (cmd : Command) :
    (marshalCmd m cmd).1 = (switchOf (.send cmd)).getD m := by
  rw [marshalCmd_eq]
  exact switch_eq _ _

theorem unmarshal_mode_id (m : Bool) (pkt : Bytes) (x : Bool × Command × Option Err)
    (h : unmarshalCmd m pkt = .ret x) :
    x.1 = match unmarshalLingoCmdID pkt with
      | (.error _, _) => m
      | (.ok id, _) => handleCmdID m id := by
  rw [unmarshalCmd_eq] at h
  split at h
  · rename_i e r he; rw [he]; cases h; rfl
  · rename_i id r he
    rw [he]
    simp only
    split at h
    · cases h; rfl
    · rename_i t _
      cases hd : decodePayload t r with
      | panic => rw [hd] at h; simp at h
      | ret y => rw [hd] at h; cases y <;> simp at h <;> cases h <;> rfl
    · rename_i t _
      split at h
      · rename_i a b r' _
        cases hd : decodePayload t r' with
        | panic => rw [hd] at h; simp at h
        | ret y => rw [hd] at h; cases y <;> simp at h <;> cases h <;> rfl
      · cases h; rfl
      · cases h; rfl

theorem unmarshal_mode (m : Bool) (pkt : Bytes) (x : Bool × Command × Option Err)
    (h : unmarshalCmd m pkt = .ret x) : x.1 = (switchOf (.receive pkt)).getD m := by
  rw [unmarshal_mode_id m pkt x h]
  have e0 : idOf 0x00 0x00 = 0x00 := by decide +kernel
  have e1 : idOf 0x00 0x13 = 0x13 := by decide +kernel
  have e2 : idOf 0x00 0x38 = 0x38 := by decide +kernel
  have key : ∀ (l c r), pkt = l :: c :: r → l ≠ 0x04 →
      handleCmdID m (idOf l (UInt8.toUInt16 c)) = (switchOf (.receive pkt)).getD m := by
    rintro l c r rfl hl
    rw [switch_eq, switchOfId]
    have inj : ∀ k : UInt8, idOf l c.toUInt16 = idOf 0x00 k.toUInt16 ↔ l = 0x00 ∧ c = k := by
      intro k
      constructor
      · intro h
        obtain ⟨h1, h2⟩ := idOf_inj h
        have : c.toUInt16.toNat = k.toUInt16.toNat := by rw [h2]
        simp only [UInt8.toNat_toUInt16] at this
        exact ⟨h1, UInt8.toNat_inj.1 this⟩
      · rintro ⟨rfl, rfl⟩; rfl
    have i0 := inj 0x00
    have i1 := inj 0x13
    have i2 := inj 0x38
    simp only [show (0x00 : UInt8).toUInt16 = 0x00 from rfl, show (0x13 : UInt8).toUInt16 = 0x13 from rfl,
      show (0x38 : UInt8).toUInt16 = 0x38 from rfl] at i0 i1 i2
    by_cases h0 : l = 0x00 ∧ c = 0x00
    · obtain ⟨rfl, rfl⟩ := h0; rfl
    · rw [if_neg (fun h => h0 (i0.1 h))]
      by_cases h1 : l = 0x00 ∧ c = 0x13
      · obtain ⟨rfl, rfl⟩ := h1; rfl
      · rw [if_neg (fun h => h1 (i1.1 h))]
        by_cases h2 : l = 0x00 ∧ c = 0x38
        · obtain ⟨rfl, rfl⟩ := h2; rfl
        · rw [if_neg (fun h => h2 (i2.1 h))]
          unfold switchOf
          split <;> simp_all
  rw [unmarshalLingoCmdID_eq]
  match pkt with
  | [] => rfl
  | l :: r =>
    by_cases h4 : l = 0x04
    · subst h4
      have hsw : switchOf (.receive (4 :: r)) = none := by
        unfold switchOf; split <;> simp_all
      rw [hsw]
      simp only [if_true]
      match r with
      | [] => rfl
      | [_] => rfl
      | a :: b :: r =>
        simp only
        rw [switch_eq, switchOfId, if_neg, if_neg, if_neg]
        all_goals intro h; have := (idOf_inj h).1; simp at this
    · simp only [h4, if_false]
      match r with
      | [] =>
        simp only
        unfold switchOf; split <;> simp_all
      | c :: r => exact key l c r rfl h4

/-- C16. After any history the mode is decided by the last switching command, else it is the initial one. -/
theorem C16_mode_last_switch (m m' : Bool) (ops : List SerdeOp) (h : runSerde m ops = .ret m') :
    m' = modeAfter m ops := by
  induction ops generalizing m with
  | nil => cases h; rfl
  | cons op ops ih =>
    have step : ∀ k, k = (switchOf op).getD m → modeAfter k ops = modeAfter m (op :: ops) := by
      rintro k rfl
      simp only [modeAfter, List.filterMap_cons]
      cases switchOf op with
      | none => rfl
      | some b =>
        simp only [Option.getD_some]
        rw [List.getLast?_cons]
        simp
    cases op with
    | send cmd => exact (ih _ h).trans (step _ (marshal_mode m cmd))
    | receive pkt =>
      rw [runSerde] at h
      cases hu : unmarshalCmd m pkt with
      | panic => rw [hu] at h; simp at h
      | ret x =>
        rw [hu] at h
        exact (ih _ h).trans (step _ (unmarshal_mode m pkt x hu))

example : true = modeAfter false [.receive [0x00, 0x38, 0x00, 0x01], .receive [0x00, 0x07], .receive [0xFF]] :=
  C16_mode_last_switch false true _ (by decide +kernel)

/-- StartIDPS received, other traffic, then nothing switching: the mode is on. -/
example : runSerde false [.receive [0x00, 0x38, 0x00, 0x01], .receive [0x00, 0x07], .receive [0xFF],
    .send ⟨0x00000F, none, .nil⟩] = .ret true := by decide +kernel
example : modeAfter true [.receive [0x00, 0x38], .receive [0x00, 0x13, 0x01]] = false := by decide +kernel

/-! ## C17 -/

theorem encode_iff (p : Payload) (body : Bytes) : encodePayload p = .ok body ↔ PayloadBytes p body := by
  cases p with
  | nil => simp [encodePayload]; intro h; cases h
  | unknown b =>
    simp only [encodePayload, Except.ok.injEq]
    constructor
    · rintro rfl; exact .raw b
    · intro h; cases h; rfl
  | ptr t v =>
    simp only [encodePayload]
    cases hb : t.marshalBinary v with
    | some r =>
      simp only
      constructor
      · rintro rfl; exact .own hb
      · intro h
        cases h with
        | own h' => rw [hb] at h'; simpa using h'
        | struct h' => rw [hb] at h'; simp at h'
    | none =>
      simp only [binWrite]
      constructor
      · cases hs : structSize t.schema with
        | none => simp
        | some n =>
          simp only [Except.ok.injEq]
          rintro rfl
          exact .struct hb ((structSize_iff _ _).1 hs) (structBytes_enc hs v)
      · intro h
        cases h with
        | own h' => rw [hb] at h'; simp at h'
        | struct h1 h2 h3 =>
          have hs := (structSize_iff _ _).2 h2
          rw [hs]
          simp only [Except.ok.injEq]
          exact structBytes_unique (structBytes_enc hs v) h3

/-- C17. The layout of a packet; the mode is the one after the command itself. -/
theorem C17_packet_layout (m : Bool) (cmd : Command) (hid : ∃ l c, cmd.id = idOf l c) (pkt : Bytes) :
    (marshalCmd m cmd).2 = .ok pkt ↔
      ∃ (l : UInt8) (c : UInt16) (body : Bytes), cmd.id = idOf l c ∧ PayloadBytes cmd.payload body ∧
        pkt = idBytes l c ++ (if (switchOfId cmd.id).getD m then transactionBytes cmd.trx else []) ++ body := by
  have henc : ∀ body, encodePayload cmd.payload = .ok body ↔ PayloadBytes cmd.payload body := encode_iff cmd.payload
  rw [marshalCmd_eq]
  simp only
  rw [← switch_eq]
  have hst : trxBytes (sentTrx (handleCmdID m cmd.id) cmd.trx) =
      if handleCmdID m cmd.id = true then transactionBytes cmd.trx else [] := by
    rw [sentTrx]
    split
    · exact trxBytes_eq _
    · rfl
  rw [hst]
  constructor
  · intro h
    obtain ⟨l, c, hlc⟩ := hid
    cases he : encodePayload cmd.payload with
    | error e => rw [he] at h; simp at h
    | ok b =>
      rw [he] at h
      simp only [Except.ok.injEq] at h
      refine ⟨l, c, b, hlc, (henc b).1 he, ?_⟩
      rw [← h, hlc, lingoID_idOf, cmdID_idOf]
  · rintro ⟨l, c, b, hlc, hb, rfl⟩
    rw [(henc b).2 hb]
    simp only
    rw [hlc, lingoID_idOf, cmdID_idOf]

example : ∃ (l : UInt8) (c : UInt16) (body : Bytes), (0x00000F : UInt32) = idOf l c ∧
    PayloadBytes (.ptr (.gen .RequestLingoProtocolVersion) (0x0A, ())) body ∧
    [0x00, 0x0F, 0x12, 0x34, 0x0A] = idBytes l c ++ (if (switchOfId 0x00000F).getD true then transactionBytes (some 0x1234) else []) ++ body :=
  (C17_packet_layout true ⟨0x00000F, some 0x1234, .ptr (.gen .RequestLingoProtocolVersion) (0x0A, ())⟩
    ⟨0x00, 0x0F, by decide +kernel⟩ [0x00, 0x0F, 0x12, 0x34, 0x0A]).1 (by decide +kernel)

/-- C17. A nil payload, or one that has no wire form, is refused. -/
theorem C17_no_wire_form (m : Bool) (cmd : Command) (hid : ∃ l c, cmd.id = idOf l c) :
    (∃ e, (marshalCmd m cmd).2 = .error e) ↔ ∀ b, ¬ PayloadBytes cmd.payload b := by
  obtain ⟨l, c, hlc⟩ := hid
  constructor
  · rintro ⟨e, he⟩ b hb
    have := (C17_packet_layout m cmd ⟨l, c, hlc⟩ _).2 ⟨l, c, b, hlc, hb, rfl⟩
    rw [he] at this; simp at this
  · intro h
    cases hr : (marshalCmd m cmd).2 with
    | error e => exact ⟨e, rfl⟩
    | ok pkt =>
      obtain ⟨_, _, b, _, hb, _⟩ := (C17_packet_layout m cmd ⟨l, c, hlc⟩ _).1 hr
      exact absurd hb (h b)

example : ∀ b, ¬ PayloadBytes .nil b :=
  (C17_no_wire_form true ⟨0x00000F, none, .nil⟩ ⟨0x00, 0x0F, by decide +kernel⟩).1 ⟨_, rfl⟩

/-- C17 for ids of any 32 bits: the lingo written is bits 16 to 23, the command the low 16 bits, whatever is above. -/
theorem C17_any_id (m : Bool) (cmd : Command) (pkt : Bytes) :
    (marshalCmd m cmd).2 = .ok pkt ↔
      ∃ body : Bytes, PayloadBytes cmd.payload body ∧
        pkt = idBytes (UInt8.ofNat (cmd.id.toNat / 65536)) (UInt16.ofNat cmd.id.toNat) ++
          (if (switchOfId cmd.id).getD m then transactionBytes cmd.trx else []) ++ body := by
  have hl : LingoCmdID.lingoID cmd.id = UInt8.ofNat (cmd.id.toNat / 65536) := by
    apply UInt8.toNat_inj.1
    simp [LingoCmdID.lingoID, UInt32.toNat_shiftRight, Nat.shiftRight_eq_div_pow, Nat.and_two_pow_sub_one_eq_mod _ 8]
  have hc : LingoCmdID.cmdID cmd.id = UInt16.ofNat cmd.id.toNat := by
    apply UInt16.toNat_inj.1
    simp [LingoCmdID.cmdID, Nat.and_two_pow_sub_one_eq_mod _ 16]
  have henc : ∀ body, encodePayload cmd.payload = .ok body ↔ PayloadBytes cmd.payload body := encode_iff cmd.payload
  rw [marshalCmd_eq]
  simp only
  rw [← switch_eq, hl, hc]
  have hst : trxBytes (sentTrx (handleCmdID m cmd.id) cmd.trx) =
      if handleCmdID m cmd.id = true then transactionBytes cmd.trx else [] := by
    rw [sentTrx]
    split
    · exact trxBytes_eq _
    · rfl
  rw [hst]
  constructor
  · intro h
    cases he : encodePayload cmd.payload with
    | error e => rw [he] at h; simp at h
    | ok b =>
      rw [he] at h
      simp only [Except.ok.injEq] at h
      exact ⟨b, (henc b).1 he, h.symm⟩
  · rintro ⟨b, hb, rfl⟩
    rw [(henc b).2 hb]

example : (marshalCmd true ⟨0x01000007, some 0x0102, .ptr (.gen .RequestiPodName) ()⟩).2 = .ok [0x00, 0x07, 0x01, 0x02] := by
  decide +kernel

/-- StartIDPS switches the mode before its own transaction is written. -/
example : (marshalCmd false ⟨0x38, some 0x0102, .ptr (.gen .StartIDPS) ()⟩).2 = .ok [0x00, 0x38, 0x01, 0x02] := by
  decide +kernel
example : ∃ l c, (0x00040029 : UInt32) = idOf l c := ⟨0x04, 0x29, by decide +kernel⟩

/-! ## C18 -/

/-- C18, part: the packets on which `UnmarshalCmd` panics are exactly the following two kinds; on all others it returns.
(1) RequestApplicationLaunch with fewer than 3 bytes of body; (2) SetFIDTokenValues with, behind accepted tokens, a
token of the two bytes 00 04. The two bytes `trx` are present iff transactions are on. -/
theorem C18_unmarshal_panics_iff_partial (m : Bool) (pkt : Bytes) :
    unmarshalCmd m pkt = .panic ↔
      ∃ trx : Bytes, trx.length = (if m then 2 else 0) ∧
        ((∃ body, pkt = [0x00, 0x64] ++ trx ++ body ∧ body.length < 3) ∨
         (∃ n r, pkt = [0x00, 0x39] ++ trx ++ (n :: r) ∧ BareEAToken n.toNat r)) := by
  have i1 : TypeId.id (.gen .RequestApplicationLaunch) = idOf 0x00 (0x64 : UInt8).toUInt16 := by decide +kernel
  have i2 : TypeId.id (.gen .SetFIDTokenValues) = idOf 0x00 (0x39 : UInt8).toUInt16 := by decide +kernel
  have l1 : ∀ n d, registry.lookup TypeId.size (idOf 0x00 (0x64 : UInt8).toUInt16) n d =
      some (.gen .RequestApplicationLaunch, d) := by intro n d; rw [← i1]; exact lookup_var rfl n d
  have l2 : ∀ n d, registry.lookup TypeId.size (idOf 0x00 (0x39 : UInt8).toUInt16) n d =
      some (.gen .SetFIDTokenValues, d) := by intro n d; rw [← i2]; exact lookup_var rfl n d
  have m1 : handleCmdID m (idOf 0x00 (0x64 : UInt8).toUInt16) = m := by rw [← i1]; exact handleCmdID_var rfl m
  have m2 : handleCmdID m (idOf 0x00 (0x39 : UInt8).toUInt16) = m := by rw [← i2]; exact handleCmdID_var rfl m
  constructor
  · intro h
    rw [unmarshalCmd_eq] at h
    split at h
    · simp at h
    · rename_i id r he
      -- the type whose decoder panicked fixes id and transaction flag
      have fin : ∀ t b body trx, registry.lookup TypeId.size id r.length (handleCmdID m id) = some (t, b) →
          r = trx ++ body → trx.length = (if b then 2 else 0) → decodePayload t body = .panic → 
          ∃ trx : Bytes, trx.length = (if m then 2 else 0) ∧
            ((∃ body, pkt = [0x00, 0x64] ++ trx ++ body ∧ body.length < 3) ∨
             (∃ n r, pkt = [0x00, 0x39] ++ trx ++ (n :: r) ∧ BareEAToken n.toNat r)) := by
        intro t b body trx hl hr htl hd
        have hid := lookup_found hl
        rcases (decodePayload_panic t body).1 hd with ⟨rfl, hlen⟩ | ⟨rfl, n, r', rfl, hb⟩
        · rw [i1] at hid
          subst hid
          rw [m1, l1] at hl
          simp only [Option.some.injEq, Prod.mk.injEq, true_and] at hl
          subst hl
          refine ⟨trx, htl, .inl ⟨body, ?_, hlen⟩⟩
          rw [(unmarshalLingoCmdID_short (by decide)).1 he, hr]
          simp
        · rw [i2] at hid
          subst hid
          rw [m2, l2] at hl
          simp only [Option.some.injEq, Prod.mk.injEq, true_and] at hl
          subst hl
          refine ⟨trx, htl, .inr ⟨n, r', ?_, hb⟩⟩
          rw [(unmarshalLingoCmdID_short (by decide)).1 he, hr]
          simp
      split at h
      · simp at h
      · rename_i t hl
        cases hd : decodePayload t r with
        | panic => exact fin t false r [] hl rfl rfl hd
        | ret y => rw [hd] at h; cases y <;> simp at h
      · rename_i t hl
        split at h
        · rename_i x y r'
          cases hd : decodePayload t r' with
          | panic => exact fin t true r' [x, y] hl rfl rfl hd
          | ret y => rw [hd] at h; cases y <;> simp at h
        · simp at h
        · simp at h
  · rintro ⟨trx, htl, h⟩
    have fin : ∀ (t : TypeId) (c : UInt8) (body : Bytes), pkt = [0x00, c] ++ trx ++ body →
        (∀ n d, registry.lookup TypeId.size (idOf 0x00 c.toUInt16) n d = some (t, d)) →
        handleCmdID m (idOf 0x00 c.toUInt16) = m → decodePayload t body = .panic →
        unmarshalCmd m pkt = .panic := by
      intro t c body hp hl hm hd
      have he : unmarshalLingoCmdID pkt = (.ok (idOf 0x00 c.toUInt16), trx ++ body) :=
        (unmarshalLingoCmdID_short (by decide)).2 (by simp [hp])
      rw [unmarshalCmd_eq, he]
      simp only [hl, hm]
      cases m with
      | false =>
        simp at htl
        subst htl
        simp [hd]
      | true =>
        match trx, htl with
        | [x, y], _ => simp [hd]
    rcases h with ⟨body, hp, hlen⟩ | ⟨n, r, hp, hb⟩
    · exact fin _ _ _ hp l1 m1 ((decodePayload_panic _ _).2 (.inl ⟨rfl, hlen⟩))
    · exact fin _ _ _ hp l2 m2 ((decodePayload_panic _ _).2 (.inr ⟨rfl, n, r, rfl, hb⟩))

/-- C18 fails: two packets, each a dozen bytes or less, that crash the decoder. -/
theorem C18_unmarshal_can_panic :
    unmarshalCmd false [0x00, 0x64, 0x01] = .panic ∧
    unmarshalCmd true [0x00, 0x39, 0x00, 0x07, 0x01, 0x02, 0x00, 0x04] = .panic := by
  constructor
  · exact (C18_unmarshal_panics_iff_partial _ _).2 ⟨[], rfl, .inl ⟨[0x01], rfl, by decide⟩⟩
  · exact (C18_unmarshal_panics_iff_partial _ _).2
      ⟨[0x00, 0x07], rfl, .inr ⟨0x01, [0x02, 0x00, 0x04], rfl, .here rfl⟩⟩

/-- C18: no packet of another lingo or another command panics. -/
theorem C18_other_commands_return_partial (m : Bool) (pkt : Bytes)
    (h : ∀ r, pkt ≠ 0x00 :: 0x64 :: r ∧ pkt ≠ 0x00 :: 0x39 :: r) : ∃ x, unmarshalCmd m pkt = .ret x := by
  cases hu : unmarshalCmd m pkt with
  | ret x => exact ⟨x, rfl⟩
  | panic =>
    obtain ⟨trx, _, ⟨b, hb, _⟩ | ⟨n, r, hb, _⟩⟩ := (C18_unmarshal_panics_iff_partial m pkt).1 hu
    · exact absurd (by simpa using hb) (h (trx ++ b)).1
    · exact absurd (by simpa using hb) (h (trx ++ n :: r)).2

example : ∃ x, unmarshalCmd true [0x04, 0x00, 0x64, 0x01] = .ret x := C18_other_commands_return_partial true _ (by simp)

/-- An accepted token in front of the bare one. -/
example : BareEAToken 2 [0x04, 0x00, 0x08, 0x01, 0x02, 0x02, 0x00, 0x04] :=
  .later ⟨0x00, 0x08, [0x01, 0x02], rfl, Nat.le_refl 2⟩ (.here rfl)
example : ∀ r, ([0x04, 0x00, 0x64, 0x01] : Bytes) ≠ 0x00 :: 0x64 :: r ∧
    ([0x04, 0x00, 0x64, 0x01] : Bytes) ≠ 0x00 :: 0x39 :: r := by simp

/-! ## C19 -/

theorem unmarshalLingoCmdID_inv {pkt r : Bytes} {id : UInt32} (h : unmarshalLingoCmdID pkt = (.ok id, r)) :
    ∃ l c, id = idOf l c ∧ pkt = idBytes l c ++ r := by
  rw [unmarshalLingoCmdID_eq] at h
  match pkt with
  | [] => simp at h
  | l :: p =>
    by_cases h4 : l = 0x04
    · subst h4
      match p with
      | [] => simp at h
      | [_] => simp at h
      | x :: y :: p =>
        simp only [if_true, Prod.mk.injEq, Except.ok.injEq] at h
        obtain ⟨rfl, rfl⟩ := h
        refine ⟨_, _, rfl, ?_⟩
        have hx := x.toNat_lt
        have hy := y.toNat_lt
        simp only [idBytes, if_true, List.cons_append, List.nil_append, List.cons.injEq, and_true, true_and]
        constructor <;> apply UInt8.toNat_inj.1 <;> simp <;> omega
    · match p with
      | [] => simp [h4] at h
      | x :: p =>
        simp only [h4, if_false, Prod.mk.injEq, Except.ok.injEq] at h
        obtain ⟨rfl, rfl⟩ := h
        refine ⟨_, _, rfl, ?_⟩
        have hx := x.toNat_lt
        simp only [idBytes, h4, if_false, List.cons_append, List.nil_append, List.cons.injEq, and_true,
          true_and]
        apply UInt8.toNat_inj.1
        simp

/-- C19. What the command returned along with an error, or without one, contains. -/
theorem C19_decode_result (m m' : Bool) (pkt : Bytes) (cmd : Command) (e : Option Err)
    (h : unmarshalCmd m pkt = .ret (m', cmd, e)) :
    (e ≠ none →
      cmd.payload = .nil ∨
      ∃ l c r, pkt = idBytes l c ++ r ∧ cmd = ⟨idOf l c, none, .unknown r⟩ ∧
        registry.lookup TypeId.size (idOf l c) r.length m' = none) ∧
    (e = none →
      ∃ l c body t v, pkt = idBytes l c ++ transactionBytes cmd.trx ++ body ∧ cmd.id = idOf l c ∧
        registry.lookupID t = some cmd.id ∧ cmd.payload = .ptr t v ∧ Decodes t body v) := by
  rw [unmarshalCmd_eq] at h
  split at h
  · simp only [Out.ret.injEq, Prod.mk.injEq] at h
    obtain ⟨_, rfl, rfl⟩ := h
    simp [Command.zero]
  · rename_i id r he
    obtain ⟨l, c, rfl, rfl⟩ := unmarshalLingoCmdID_inv he
    split at h
    · rename_i hl
      simp only [Out.ret.injEq, Prod.mk.injEq] at h
      obtain ⟨rfl, rfl, rfl⟩ := h
      refine ⟨fun _ => .inr ⟨l, c, r, rfl, rfl, hl⟩, by simp⟩
    · rename_i t hl
      cases hd : decodePayload t r with
      | panic => rw [hd] at h; simp at h
      | ret y =>
        rw [hd] at h
        cases y with
        | error e' =>
          simp only [Out.bind_ret, Out.ret.injEq, Prod.mk.injEq] at h
          obtain ⟨_, rfl, rfl⟩ := h
          simp
        | ok v =>
          simp only [Out.bind_ret, Out.ret.injEq, Prod.mk.injEq] at h
          obtain ⟨_, rfl, rfl⟩ := h
          refine ⟨by simp, fun _ => ⟨l, c, r, t, v, ?_, rfl, ?_, rfl, (decodePayload_iff _ _ _).1 hd⟩⟩
          · simp [transactionBytes]
          · rw [lookupID_eq, lookup_found hl]
    · rename_i t hl
      split at h
      · rename_i x y r'
        cases hd : decodePayload t r' with
        | panic => rw [hd] at h; simp at h
        | ret z =>
          rw [hd] at h
          cases z with
          | error e' =>
            simp only [Out.bind_ret, Out.ret.injEq, Prod.mk.injEq] at h
            obtain ⟨_, rfl, rfl⟩ := h
            simp
          | ok v =>
            simp only [Out.bind_ret, Out.ret.injEq, Prod.mk.injEq] at h
            obtain ⟨_, rfl, rfl⟩ := h
            refine ⟨by simp, fun _ => ⟨l, c, r', t, v, ?_, rfl, ?_, rfl, (decodePayload_iff _ _ _).1 hd⟩⟩
            · have hx := x.toNat_lt
              have hy := y.toNat_lt
              have e1 : UInt8.ofNat ((x.toNat * 256 + y.toNat) % 65536 / 256) = x := by
                apply UInt8.toNat_inj.1; simp; omega
              have e2 : UInt8.ofNat ((x.toNat * 256 + y.toNat) % 65536 % 256) = y := by
                apply UInt8.toNat_inj.1; simp
              simp only [transactionBytes, UInt16.toNat_ofNat', Nat.reducePow, e1, e2]
              simp
            · rw [lookupID_eq, lookup_found hl]
      · simp only [Out.ret.injEq, Prod.mk.injEq] at h
        obtain ⟨_, rfl, rfl⟩ := h
        simp
      · simp only [Out.ret.injEq, Prod.mk.injEq] at h
        obtain ⟨_, rfl, rfl⟩ := h
        simp

example : (Command.mk 0x00000F none .nil).payload = .nil ∨ ∃ l c r, ([0x00, 0x0F] : Bytes) = idBytes l c ++ r ∧
    (Command.mk 0x00000F none .nil) = ⟨idOf l c, none, .unknown r⟩ ∧ registry.lookup TypeId.size (idOf l c) r.length false = none :=
  (C19_decode_result false false [0x00, 0x0F] ⟨0x00000F, none, .nil⟩ (some .eof) (by decide +kernel)).1 (by simp)

/-- An unknown command, a short packet and a good one. -/
example : unmarshalCmd true [0x00, 0xEE, 0x01, 0x02] = .ret (true, ⟨0x0000EE, none, .unknown [0x01, 0x02]⟩,
    some Err.unknownCmd) := by decide +kernel
example : unmarshalCmd false [0x00, 0x0F] = .ret (false, ⟨0x00000F, none, .nil⟩, some .eof) := by decide +kernel
example : unmarshalCmd true [0x00, 0x0F, 0x00, 0x09, 0x04] =
    .ret (true, ⟨0x00000F, some 9, .ptr (.gen .RequestLingoProtocolVersion) (0x04, ())⟩, none) := by decide +kernel

/-! ## C67 -/

/-- C67. A packet of a variable-size message is accepted exactly if the bytes behind id and transaction mean a value of the
message, and then delivers this value; otherwise (and unless the decoder panics, see C18) it is refused. -/
theorem C67_variable_messages (t : TypeId) (h : ∀ n, ¬ FixedSize t.schema n) (m : Bool) (trx : Option UInt16)
    (ht : trx.isSome = m) (body : Bytes) :
    (∀ v, unmarshalCmd m (idBytes t.lingo t.cmd ++ transactionBytes trx ++ body) =
        .ret (m, ⟨t.id, trx, .ptr t v⟩, none) ↔ Decodes t body v) ∧
    ((∀ v, ¬ Decodes t body v) →
      unmarshalCmd m (idBytes t.lingo t.cmd ++ transactionBytes trx ++ body) = .panic ∨
      ∃ e, unmarshalCmd m (idBytes t.lingo t.cmd ++ transactionBytes trx ++ body) =
        .ret (m, ⟨t.id, trx, .nil⟩, some e)) := by
  have hs : t.size = none := by
    cases hn : t.size with
    | none => rfl
    | some n => exact absurd ((structSize_iff _ _).1 hn) (h n)
  have key : unmarshalCmd m (idBytes t.lingo t.cmd ++ transactionBytes trx ++ body) =
      (decodePayload t body >>= fun p =>
        match p with
        | .error e => .ret (m, ⟨t.id, trx, .nil⟩, some e)
        | .ok v => .ret (m, ⟨t.id, trx, .ptr t v⟩, none)) := by
    rw [unmarshalCmd_eq, List.append_assoc, unmarshalLingoCmdID_idBytes _ _ (id_fits t)]
    have e : idOf t.lingo t.cmd = t.id := rfl
    simp only [e, lookup_var hs, handleCmdID_var hs]
    cases trx with
    | none => cases ht; rfl
    | some x =>
      cases ht
      simp only [transactionBytes, List.cons_append, List.nil_append]
      have : UInt16.ofNat ((UInt8.ofNat (x.toNat / 256)).toNat * 256 + (UInt8.ofNat (x.toNat % 256)).toNat) = x := by
        have := x.toNat_lt
        apply UInt16.toNat_inj.1
        simp
        omega
      rw [this]
      rfl
  rw [key]
  constructor
  · intro v
    rw [← decodePayload_iff]
    cases decodePayload t body with
    | panic => simp
    | ret x => cases x <;> simp
  · intro hn
    cases hd : decodePayload t body with
    | panic => exact .inl rfl
    | ret x =>
      cases x with
      | error e => exact .inr ⟨e, rfl⟩
      | ok v => exact absurd ((decodePayload_iff _ _ _).1 hd) (hn v)

/-- Version 2 authentication info with a certificate section of two bytes, and a version 1 one. -/
example : Decodes (.gen .RetDevAuthenticationInfo) [0x02, 0x00, 0x00, 0x01, 0xAA, 0xBB] (2, 0, 0, 1, [0xAA, 0xBB], ()) :=
  .inl ⟨by decide, rfl⟩
example : Decodes (.gen .RetDevAuthenticationInfo) [0x01, 0x07, 0x09] (1, 7, 0, 0, [], ()) :=
  .inr ⟨by decide, rfl, rfl, rfl, [0x09], rfl⟩
/-- A token list: an accessory name without the final zero byte, then a token of unknown kind. -/
example : Decodes (.gen .SetFIDTokenValues) [0x02, 0x04, 0x00, 0x02, 0x01, 0x41, 0x02, 0x07, 0x07]
    ([⟨⟨0, 2⟩, .accInfo 1 (some [0x41])⟩, ⟨⟨7, 7⟩, .raw []⟩], ()) :=
  ⟨2, _, rfl, .cons ⟨[0x01, 0x41], rfl, rfl, [0x41], [0x41], rfl, rfl, .inl ⟨by decide, .inr ⟨by decide, rfl⟩⟩⟩
    (.cons ⟨[], rfl, by decide, rfl⟩ .nil)⟩
example : ∀ n, ¬ FixedSize (TypeId.schema (.gen .SetFIDTokenValues)) n := by
  intro n h
  have := (structSize_iff _ _).2 h
  simp [structSize, FTy.size] at this

end Props
