import Verif.Spec.Shown
import Verif.Lemmas.Decode
import Verif.Lemmas.Playback

/-!
# What `ipod view` makes of the packets in a frame
-/

namespace Ipod
open Go Hid Trace Spec Props

theorem decodes_cut {t : TypeId} {r b : Bytes} (h : cutBody t.size r = some b) : decodePayload t b = decodePayload t r := by
  cases hn : t.size with
  | none => rw [hn] at h; cases h; rfl
  | some n =>
    rw [hn, cutBody] at h
    split at h
    · cases h
    · rename_i hl
      cases h
      rw [fixed_plain t n hn, fixed_plain t n hn, binRead, binRead]
      have e : structSize t.schema = some n := hn
      simp only [e, if_neg hl]
      have hl' : ¬ (r.take n).length < n := by rw [List.length_take]; omega
      simp only [if_neg hl', List.take_take, Nat.min_self]
      cases decStruct t.schema (r.take n) <;> rfl

theorem decodes_short {t : TypeId} {r : Bytes} (h : cutBody t.size r = none) : ∃ e, decodePayload t r = .ret (.error e) := by
  cases hn : t.size with
  | none => rw [hn] at h; cases h
  | some n =>
    rw [hn, cutBody] at h
    split at h
    · rename_i hl
      have e : structSize t.schema = some n := hn
      rw [fixed_plain t n hn, binRead]
      simp only [e, if_pos hl]
      exact ⟨_, rfl⟩
    · cases h

theorem packet_seen {m m' : Bool} {packet : Bytes} {cmd : Command} {e : Option Err} (h : unmarshalCmd m packet = .ret (m', cmd, e)) :
    SeenAs m packet cmd := by
  have hid := unmarshalID_split packet
  unfold SeenAs
  match hs : splitID packet with
  | none =>
    rw [hs] at hid
    obtain ⟨e', r, hid⟩ := hid
    unfold unmarshalCmd at h
    rw [hid] at h
    cases h
    rfl
  | some (l, k, r) =>
    rw [hs] at hid
    have hid : unmarshalLingoCmdID packet = (.ok (idOf l k), r) := hid
    unfold unmarshalCmd at h
    rw [hid] at h
    simp only [trxAfter_eq] at h
    have hl := lookup_hear (trxAfter l k m) l k r
    simp only
    generalize hm : trxAfter l k m = on at h hl ⊢
    match hk : registry.lookup TypeId.size (idOf l k) r.length on with
    | none =>
      simp only [hk] at hl h
      cases h
      simp only [hl]
      exact ⟨trivial, trivial, trivial⟩
    | some (t, b) =>
      simp only [hk] at hl h
      obtain ⟨h1, h2, hl⟩ := hl
      rw [hl]
      -- what the body of the message makes of the command
      have body : ∀ (trx : Option UInt16) (q : Bytes) (o : Out (Bool × Command × Option Err)),
          o = .ret (m', cmd, e) →
          o = (decodePayload t q >>= fun p =>
            match p with
            | .error e => .ret (on, ⟨idOf l k, trx, .nil⟩, some e)
            | .ok v => .ret (on, ⟨idOf l k, trx, .ptr t v⟩, none)) →
          cmd.id = idOf l k ∧ match (match cutBody t.size q with
            | none => Hearing.garbled
            | some b => .message trx b) with
            | .unknown => cmd.trx = none ∧ cmd.payload = .unknown r
            | .garbled => cmd.payload = .nil
            | .message trx body =>
              cmd.trx = trx ∧ ∃ t : TypeId, t.lingo = l ∧ t.cmd = k ∧
                ((∃ v, cmd.payload = .ptr t v ∧ Decodes t body v) ∨ (cmd.payload = .nil ∧ ∀ v, ¬ Decodes t body v)) := by
        rintro trx q o rfl ho
        cases hd : decodePayload t q with
        | panic => rw [hd] at ho; cases ho
        | ret x =>
          rw [hd] at ho
          cases hb : cutBody t.size q with
          | none =>
            obtain ⟨e', he⟩ := decodes_short hb
            rw [hd] at he
            cases he
            cases ho
            exact ⟨rfl, rfl⟩
          | some b =>
            have hc := decodes_cut hb
            cases x with
            | error e' =>
              cases ho
              refine ⟨rfl, rfl, t, h1, h2, .inr ⟨rfl, fun v hv => ?_⟩⟩
              rw [← decodePayload_iff, hc, hd] at hv
              cases hv
            | ok v =>
              cases ho
              refine ⟨rfl, rfl, t, h1, h2, .inl ⟨v, rfl, ?_⟩⟩
              rw [← decodePayload_iff, hc, hd]
      cases b with
      | false => exact body none r _ h rfl
      | true =>
        simp only at h
        match r, h, body with
        | [], h, _ => rw [binRead_u16_nil] at h; cases h; exact ⟨rfl, rfl⟩
        | [x], h, _ => rw [binRead_u16_one] at h; cases h; exact ⟨rfl, rfl⟩
        | x :: y :: r, h, body =>
          rw [binRead_u16_cons] at h
          exact body (some (UInt16.ofNat (x.toNat * 256 + y.toNat))) r _ h rfl

theorem decoded_seen {m m' : Bool} {ps : List Bytes} {cmds : List Command} (h : Decoded m ps m' cmds) : SeenAll m ps cmds := by
  induction h with
  | nil => trivial
  | @cons m m1 m' p ps cmd cmds err h1 h2 ih =>
    have hm : m1 = trxThrough m [p] := mode_through (.cons h1 .nil)
    exact ⟨packet_seen h1, hm ▸ ih⟩

theorem cmds_seen {m : Bool} {evs : List Shown} (h : ShownCmds m evs) : SeenIn m evs := by
  induction h with
  | nil => trivial
  | error _ ih => exact ⟨rfl, ih⟩
  | @frame m m' d f spare ps cmds evs h1 h2 _ ih =>
    have hp : ps = packetsIn f := by
      rcases scan_packetsIn spare f with h3 | ⟨_, ps', h3⟩
      · exact (scan_unique h1 h3).1
      · exact absurd (scan_unique h1 h3).2 (by decide)
    subst hp
    have hm := mode_through h2
    subst hm
    exact ⟨decoded_seen h2, ih⟩

end Ipod
