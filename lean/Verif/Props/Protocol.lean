import Verif.Spec.Protocol
import Verif.Props.Constants
import Verif.Model.Text

/-! # Property C79: the wire format of all messages -/

namespace Props
open Go Spec Ipod

/-- The wire form of a Go field type; `none` for slices and interfaces. -/
def wireField : FTy → Option WireField
  | .u8 => some (.num 1)
  | .u16 => some (.num 2)
  | .u32 => some (.num 4)
  | .u64 => some (.num 8)
  | .i16 => some (.int 2)
  | .i32 => some (.int 4)
  | .bool => some .flag
  | .arr n => some (.raw n)
  | _ => none

def wireFields : List FTy → Option (List WireField)
  | [] => some []
  | f :: fs => (wireField f).bind fun w => (wireFields fs).map (w :: ·)

theorem table_eq : TypeId.all.map (fun t => (⟨t.lingo, t.cmd, t.typeName, wireFields t.schema⟩ : WireRow)) = wireTable := by
  decide +kernel

theorem names_nodup : (TypeId.all.map TypeId.typeName).Nodup := by decide +kernel

/-- C79. The registered messages are those of the table, with their ids, in order. -/
theorem C79_registered :
    (registrations registryCalls).map (fun x => (x.1, x.2.typeName)) = wireTable.map (fun r => (idOf r.lingo r.cmd, r.name)) := by
  rw [registrations_eq, ← table_eq, List.map_map, List.map_map]
  rfl

theorem wireFields_size {fs : List FTy} {ws : List WireField} (h : wireFields fs = some ws) : structSize fs = some (wireSize ws) := by
  induction fs generalizing ws with
  | nil => cases h; rfl
  | cons f fs ih =>
    cases hf : wireField f with
    | none => rw [wireFields, hf] at h; cases h
    | some w =>
      cases hs : wireFields fs with
      | none => rw [wireFields, hf, hs] at h; cases h
      | some ws' =>
        rw [wireFields, hf, hs] at h
        cases h
        have hw : f.size = some w.width := by
          cases f <;> cases hf <;> rfl
        simp only [structSize, ih hs, hw, Option.bind_eq_bind, Option.bind_some, wireSize, List.map_cons, List.sum_cons]

theorem size_wireFields {fs : List FTy} (h : wireFields fs = none) : structSize fs = none := by
  induction fs with
  | nil => cases h
  | cons f fs ih =>
    cases hf : wireField f with
    | none =>
      have hw : f.size = none := by
        cases f <;> first | rfl | cases hf
      simp [structSize, hw]
    | some w =>
      cases hs : wireFields fs with
      | none => simp [structSize, ih hs]
      | some ws' => rw [wireFields, hf, hs] at h; cases h

theorem dec_values {f : FTy} {w : WireField} (hf : wireField f = some w) {b : Bytes} (hb : b.length = w.width) {v : f.denote}
    (hv : f.dec b = some v) {fs : List FTy} (vs : SVal fs) :
    fieldValues (f :: fs) (v, vs) = w.read b :: fieldValues fs vs := by
  have hs : f.size = some w.width := by cases f <;> cases hf <;> rfl
  have hr := (FTy.dec_iff hs b v).1 hv
  cases f <;> cases hf <;> simp only [FieldReads, IsBE, IsBESigned] at hr <;>
    simp only [fieldValues, WireField.read, List.cons.injEq, and_true, FieldValue.num.injEq]
  case bool =>
    obtain ⟨x, rfl, hx⟩ := hr
    have : x.toNat = 0 ↔ x = 0 := by rw [← UInt8.toNat_inj]; simp
    cases v <;> simp_all
  case arr => rw [hr.2]
  case i16 =>
    have h1 := Int16.le_toInt v
    have h2 := Int16.toInt_lt v
    have h3 := hr.2
    split <;> omega
  case i32 =>
    have h1 := Int32.le_toInt v
    have h2 := Int32.toInt_lt v
    have h3 := hr.2
    split <;> omega
  all_goals rw [hr.2]

theorem decStruct_values {fs : List FTy} {ws : List WireField} (h : wireFields fs = some ws) {b : Bytes}
    (hb : b.length = wireSize ws) {v : SVal fs} (hv : decStruct fs b = some v) : fieldValues fs v = readFields ws b := by
  induction fs generalizing ws b with
  | nil => cases h; rfl
  | cons f fs ih =>
    cases hf : wireField f with
    | none => rw [wireFields, hf] at h; cases h
    | some w =>
      cases hs : wireFields fs with
      | none => rw [wireFields, hf, hs] at h; cases h
      | some ws' =>
        rw [wireFields, hf, hs] at h
        cases h
        have hw : f.size = some w.width := by cases f <;> cases hf <;> rfl
        simp only [wireSize, List.map_cons, List.sum_cons] at hb
        simp only [decStruct, hw, Option.bind_eq_bind, Option.bind_some] at hv
        cases hx : f.dec (b.take w.width) with
        | none => rw [hx] at hv; cases hv
        | some x =>
          cases hy : decStruct fs (b.drop w.width) with
          | none => rw [hx, hy] at hv; cases hv
          | some y =>
            rw [hx, hy] at hv
            cases hv
            rw [dec_values hf (by rw [List.length_take]; omega) hx, readFields,
              ih hs (by rw [List.length_drop, wireSize]; omega) hy]

theorem row_type {r : WireRow} (hr : r ∈ wireTable) :
    ∃ t : TypeId, r = ⟨t.lingo, t.cmd, t.typeName, wireFields t.schema⟩ := by
  rw [← table_eq] at hr
  obtain ⟨t, _, rfl⟩ := List.mem_map.1 hr
  exact ⟨t, rfl⟩

theorem type_row (t : TypeId) : (⟨t.lingo, t.cmd, t.typeName, wireFields t.schema⟩ : WireRow) ∈ wireTable := by
  rw [← table_eq]
  exact List.mem_map_of_mem (TypeId.mem_all t)

/-- C79, received. A packet of any message of fixed layout, with any body of its length, with or without transaction, in any
mode, is received as that message with the fields of the layout. Missing: ACKDataDropped without transaction, see `C14_dropped_ack_not_roundtrip`. -/
theorem C79_received_partial (r : WireRow) (hr : r ∈ wireTable) (ws : List WireField) (hw : r.fields = some ws) (trx : Option UInt16)
    (body : Bytes) (hb : body.length = wireSize ws) (hx : ¬ (r.name = "general.ACKDataDropped" ∧ trx = none)) (m : Bool) :
    ∃ m' t v, unmarshalCmd m (idBytes r.lingo r.cmd ++ transactionBytes trx ++ body) =
        .ret (m', ⟨idOf r.lingo r.cmd, trx, .ptr t v⟩, none) ∧
      t.typeName = r.name ∧ fieldValues t.schema v = readFields ws body := by
  obtain ⟨t, rfl⟩ := row_type hr
  simp only at hw hx ⊢
  have hs : t.size = some (wireSize ws) := wireFields_size hw
  obtain ⟨v, hv⟩ := decStruct_isSome (fs := t.schema) hs body (by omega)
  refine ⟨handleCmdID m t.id, t, v, ?_, rfl, decStruct_values hw hb hv⟩
  have := unmarshalCmd_built m t trx body v ?_ (decodePayload_of_dec hs hb hv)
  · rw [trxBytes_eq] at this
    exact this
  · rw [trxBytes_length, hb]
    cases trx with
    | none =>
      have hne : t ≠ .gen .ACKDataDropped := by rintro rfl; exact hx ⟨rfl, rfl⟩
      simpa using lookup_plain hs hne _
    | some tr =>
      have := lookup_trx hs (handleCmdID m t.id)
      rw [Nat.add_comm] at this
      simpa using this

/-- C79, sent. Every message goes out under the id of the table; if its layout is fixed, its body has the length and the fields
of the layout. -/
theorem C79_sent (t : TypeId) (v : t.Val) (trx : Option UInt16) (m : Bool) (cmd : Command)
    (hc : buildCommand (.ptr t v) = .ret (.ok cmd)) :
    ∃ r ∈ wireTable, r.name = t.typeName ∧ (∀ r' ∈ wireTable, r'.name = t.typeName → r' = r) ∧
      ∀ pkt, (marshalCmd m { cmd with trx := trx }).2 = .ok pkt →
        ∃ sent body, pkt = idBytes r.lingo r.cmd ++ transactionBytes sent ++ body ∧ (sent = none ∨ sent = trx) ∧
          ∀ ws, r.fields = some ws → body.length = wireSize ws ∧ readFields ws body = fieldValues t.schema v := by
  rw [buildCommand_ptr] at hc
  cases hc
  refine ⟨_, type_row t, rfl, ?_, ?_⟩
  · intro r' hr' hn
    obtain ⟨t', rfl⟩ := row_type hr'
    have : t' = t := by
      have hnd := names_nodup
      have hinj : ∀ (l : List TypeId), (l.map TypeId.typeName).Nodup → ∀ a ∈ l, ∀ b ∈ l, a.typeName = b.typeName → a = b := by
        intro l
        induction l with
        | nil => intro _ a ha; cases ha
        | cons x l ih =>
          intro hl a ha b hb hab
          rw [List.map_cons, List.nodup_cons] at hl
          rcases List.mem_cons.1 ha with rfl | ha' <;> rcases List.mem_cons.1 hb with rfl | hb'
          · rfl
          · exact absurd (hab ▸ List.mem_map_of_mem hb') hl.1
          · exact absurd (hab ▸ List.mem_map_of_mem ha') hl.1
          · exact ih hl.2 a ha' b hb' hab
      exact hinj _ hnd t' (TypeId.mem_all t') t (TypeId.mem_all t) hn
    rw [this]
  · intro pkt hp
    rw [marshalCmd_eq] at hp
    simp only at hp
    cases he : encodePayload (.ptr t v) with
    | error e => rw [he] at hp; cases hp
    | ok body =>
      rw [he] at hp
      simp only [lingoID_id, cmdID_id, Except.ok.injEq] at hp
      rw [trxBytes_eq] at hp
      refine ⟨_, body, hp.symm, ?_, ?_⟩
      · unfold sentTrx; split <;> simp
      · intro ws hws
        have hs : t.size = some (wireSize ws) := wireFields_size hws
        rw [encodePayload_fixed hs] at he
        cases he
        have hl := encStruct_length hs v
        refine ⟨hl, (decStruct_values hws hl ?_).symm⟩
        have := decStruct_encStruct hs v []
        rwa [List.append_nil] at this

/-- The layout of the answer about the playing track, and what the bytes of one say. -/
example : ⟨0x03, 0x10, "dispremote.RetPlayStatus", some [.num 1, .num 4, .num 4, .num 4]⟩ ∈ wireTable ∧
    readFields [.num 1, .num 4, .num 4, .num 4] [2, 0, 0, 0, 1, 0, 0, 1, 0, 0, 0, 0, 5] = [.num 2, .num 1, .num 256, .num 5] := by
  decide +kernel

/-- Negative numbers. -/
example : readFields [.num 1, .int 4, .int 2] [0, 0xFF, 0xFF, 0xFF, 0xFE, 0x80, 0x00] = [.num 0, .num (-2), .num (-32768)] := by
  decide +kernel

end Props
