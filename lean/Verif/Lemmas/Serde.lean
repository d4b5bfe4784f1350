import Verif.Lemmas.Codecs
import Verif.Lemmas.RealRegistry

namespace Ipod
open Go

/-- All message codecs are lossless on the values the wire format can express, except track texts. -/
theorem var_roundtrip {t : TypeId} {v : t.Val} (h : Spec.VarOK t v) (hx : ¬ Spec.IsTrackText t v) :
    ∃ b, t.marshalBinary v = some (.ok b) ∧ t.unmarshalBinary b = some (.ret (.ok v)) := by
  cases h with
  | name b => exact ⟨b, rfl, rfl⟩
  | serial b => exact ⟨b, rfl, rfl⟩
  | model id b =>
    refine ⟨_, rfl, ?_⟩
    simp only [TypeId.unmarshalBinary, unmarshalModelNum, okVal]
    rw [readOrZero_enc (f := .u32) rfl]
  | tokens l hl hall =>
    obtain ⟨b, h1, h2⟩ := tokens_roundtrip l hl hall
    have h2 := h2 []
    simp only [List.append_nil] at h2
    exact ⟨b, by simp [TypeId.marshalBinary, h1], by simp [TypeId.unmarshalBinary, mapVal, h2]⟩
  | acks l hl hall =>
    obtain ⟨b, h1, h2⟩ := acks_roundtrip l hl hall
    have h2 := h2 []
    simp only [List.append_nil] at h2
    exact ⟨b, by simp [TypeId.marshalBinary, h1], by simp [TypeId.unmarshalBinary, mapVal, h2]⟩
  | extInfo ty i hi =>
    obtain ⟨b, h1, h2⟩ := extInfo_roundtrip ty i hi
    exact ⟨b, by simp [TypeId.marshalBinary, h1], by simp [TypeId.unmarshalBinary, h2]⟩
  | artworks l =>
    exact ⟨_, rfl, by simp [TypeId.unmarshalBinary, mapVal, artworks_roundtrip]⟩
  | title b => exact ⟨b, rfl, rfl⟩
  | artist b => exact ⟨b, rfl, rfl⟩
  | album b => exact ⟨b, rfl, rfl⟩
  | dispState ty i hi => exact ⟨_, rfl, by simp [TypeId.unmarshalBinary, dispState_roundtrip ty i hi]⟩
  | dispTrack ty i hi =>
    have hf : Spec.DispTrackFixed i := Classical.byContradiction fun hn => hx hn
    exact ⟨_, rfl, by simp [TypeId.unmarshalBinary, dispTrack_roundtrip ty i hi hf]⟩
  | rates l =>
    have := rates_roundtrip l [] (by simp)
    simp only [List.append_nil] at this
    exact ⟨_, rfl, by simp [TypeId.unmarshalBinary, okVal, this]⟩
  | ctxButtons x => exact ⟨_, rfl, by simp [TypeId.unmarshalBinary, mapVal, buttons_roundtrip]⟩
  | videoButtons x => exact ⟨_, rfl, by simp [TypeId.unmarshalBinary, mapVal, buttons_roundtrip]⟩
  | audioButtons x => exact ⟨_, rfl, by simp [TypeId.unmarshalBinary, mapVal, buttons_roundtrip]⟩

theorem varOK_size {t : TypeId} {v : t.Val} (h : Spec.VarOK t v) : t.size = none := by
  cases h <;> rfl

theorem buildCommand_ptr (t : TypeId) (v : t.Val) :
    buildCommand (.ptr t v) = .ret (.ok ⟨t.id, none, .ptr t v⟩) := by
  simp only [buildCommand, lookupID_eq]

/-- The mode-switching ids. -/
theorem handleCmdID_eq (m : Bool) (id : UInt32) :
    handleCmdID m id = if id = 0x00 ∨ id = 0x13 then false else if id = 0x38 then true else m := by
  have e0 : newLingoCmdID lingoGeneralID.toUInt16 0x00 = 0x00 := by decide +kernel
  have e1 : newLingoCmdID lingoGeneralID.toUInt16 0x13 = 0x13 := by decide +kernel
  have e2 : newLingoCmdID lingoGeneralID.toUInt16 0x38 = 0x38 := by decide +kernel
  rw [handleCmdID, e0, e1, e2]
  by_cases h0 : id = 0 <;> by_cases h1 : id = 0x13 <;> simp [h0, h1]

/-- Variable-size messages do not switch the mode. -/
theorem handleCmdID_var {t : TypeId} (h : t.size = none) (m : Bool) : handleCmdID m t.id = m := by
  have tab : ∀ t ∈ TypeId.all, t.size = none → ¬ (t.id = 0x00 ∨ t.id = 0x13) ∧ t.id ≠ 0x38 := by
    decide +kernel
  obtain ⟨h1, h2⟩ := tab t t.mem_all h
  rw [handleCmdID_eq, if_neg h1, if_neg h2]

/-- Bytes of the transaction on the wire. -/
def trxBytes : Option UInt16 → Bytes
  | none => []
  | some t => FTy.enc .u16 t

theorem trxBytes_length (t : Option UInt16) : (trxBytes t).length = if t.isSome then 2 else 0 := by
  cases t <;> simp [trxBytes, FTy.enc]

/-- The transaction that is sent. -/
def sentTrx (m : Bool) (trx : Option UInt16) : Option UInt16 := if m then trx else none

theorem marshalCmd_eq (m : Bool) (cmd : Command) :
    marshalCmd m cmd = (handleCmdID m cmd.id,
      match encodePayload cmd.payload with
      | .error e => .error e
      | .ok b => .ok (Spec.idBytes (LingoCmdID.lingoID cmd.id) (LingoCmdID.cmdID cmd.id) ++
          trxBytes (sentTrx (handleCmdID m cmd.id) cmd.trx) ++ b)) := by
  rw [marshalCmd, ← marshalLingoCmdID_parts]
  cases encodePayload cmd.payload with
  | error e => rfl
  | ok b =>
    simp only [sentTrx]
    cases cmd.trx with
    | none => simp [trxBytes]
    | some t => cases handleCmdID m cmd.id <;> simp [trxBytes]

/-- Decoding a packet of a registered type whose lookup succeeds. -/
theorem unmarshalCmd_built (m : Bool) (t : TypeId) (trx : Option UInt16) (body : Bytes) (v : t.Val)
    (hl : registry.lookup TypeId.size t.id ((trxBytes trx).length + body.length) (handleCmdID m t.id) =
      some (t, trx.isSome))
    (hd : decodePayload t body = .ret (.ok v)) :
    unmarshalCmd m (Spec.idBytes t.lingo t.cmd ++ trxBytes trx ++ body) =
      .ret (handleCmdID m t.id, ⟨t.id, trx, .ptr t v⟩, none) := by
  rw [unmarshalCmd, List.append_assoc, unmarshalLingoCmdID_idBytes _ _ (id_fits t)]
  simp only [List.length_append]
  rw [show Spec.idOf t.lingo t.cmd = t.id from rfl, hl]
  cases trx with
  | none => simp only [Option.isSome_none, trxBytes, List.nil_append, hd, Out.bind_ret]
  | some tr =>
    simp only [Option.isSome_some, trxBytes, binRead_u16_enc, hd, Out.bind_ret]

theorem encodePayload_fixed {t : TypeId} {n : Nat} (h : t.size = some n) (v : t.Val) :
    encodePayload (.ptr t v) = .ok (encStruct t.schema v) := by
  simp only [encodePayload, (fixed_no_codec h v []).1]
  exact binWrite_eq h v

theorem decodePayload_fixed {t : TypeId} {n : Nat} (h : t.size = some n) (v : t.Val) :
    decodePayload t (encStruct t.schema v) = .ret (.ok v) := by
  simp only [decodePayload, (fixed_no_codec h v (encStruct t.schema v)).2]
  rw [binRead_enc' (n := n) h]

theorem lingoID_id (t : TypeId) : LingoCmdID.lingoID t.id = t.lingo := lingoID_idOf _ _
theorem cmdID_id (t : TypeId) : LingoCmdID.cmdID t.id = t.cmd := cmdID_idOf _ _

theorem fixed_command_roundtrip {t : TypeId} {n : Nat} (h : t.size = some n) (v : t.Val) (trx : Option UInt16)
    (m m' : Bool) (hx : ¬ (t = .gen .ACKDataDropped ∧ sentTrx (handleCmdID m t.id) trx = none)) :
    ∃ pkt, marshalCmd m ⟨t.id, trx, .ptr t v⟩ = (handleCmdID m t.id, .ok pkt) ∧
      unmarshalCmd m' pkt =
        .ret (handleCmdID m' t.id, ⟨t.id, sentTrx (handleCmdID m t.id) trx, .ptr t v⟩, none) := by
  rw [marshalCmd_eq]
  simp only [encodePayload_fixed h, lingoID_id, cmdID_id]
  refine ⟨_, rfl, unmarshalCmd_built m' t _ _ v ?_ (decodePayload_fixed h v)⟩
  have hlen : (encStruct t.schema v).length = n := encStruct_length h v
  generalize sentTrx (handleCmdID m t.id) trx = st at hx ⊢
  rw [trxBytes_length, hlen]
  cases st with
  | none =>
    simp only [and_true] at hx
    simpa using lookup_plain h hx _
  | some tr =>
    have := lookup_trx h (handleCmdID m' t.id)
    rw [Nat.add_comm] at this
    simpa using this

theorem var_command_roundtrip {t : TypeId} {v : t.Val} (h : Spec.VarOK t v) (hx : ¬ Spec.IsTrackText t v)
    (trx : Option UInt16) (m : Bool) (hm : m = true → trx.isSome = true) :
    ∃ pkt, marshalCmd m ⟨t.id, trx, .ptr t v⟩ = (m, .ok pkt) ∧
      unmarshalCmd m pkt = .ret (m, ⟨t.id, sentTrx m trx, .ptr t v⟩, none) := by
  obtain ⟨b, h1, h2⟩ := var_roundtrip h hx
  have hs := varOK_size h
  have hh := handleCmdID_var hs m
  rw [marshalCmd_eq]
  have he : encodePayload (.ptr t v) = .ok b := by simp [encodePayload, h1]
  simp only [he, lingoID_id, cmdID_id, hh]
  refine ⟨_, rfl, ?_⟩
  have := unmarshalCmd_built m t (sentTrx m trx) b v ?_ (by simp [decodePayload, h2])
  · rw [hh] at this; exact this
  · rw [lookup_var hs, hh]
    cases m with
    | false => rfl
    | true =>
      have := hm rfl
      simp [sentTrx, this]

end Ipod
