import Verif.Spec.FindOut
import Verif.Props.Emulator

/-! Lemmas for C112. -/

namespace Ipod
open Go Spec

theorem scan_framed {p : Bytes} (h0 : p ≠ []) (h1 : p.length < 256) : Scan [] (frameBytes p) [p] false := by
  have := Scan.packet (spare := []) (j := []) (rest := []) (b := false) (ps := []) (by decide)
    ((Props.C110_frame p h0 (by omega)).2 (by omega)) (.done (by decide))
  simpa using this

theorem scan_framed2 {p q : Bytes} (h0 : p ≠ []) (h1 : p.length < 256) (h2 : q ≠ []) (h3 : q.length < 256) :
    Scan [] (frameBytes p ++ frameBytes q) [p, q] false := by
  have := Scan.packet (spare := []) (j := []) (by decide) ((Props.C110_frame p h0 (by omega)).2 (by omega)) (scan_framed h2 h3)
  simpa using this

theorem lives_append {clock : Clock} {p p1 p2 : Pod} {a b : List (Except Err Slice)} {w1 w2 : List Bytes}
    (h1 : Lives clock p a p1 w1) (ha : .error .eof ∉ a) (h2 : Lives clock p1 b p2 w2) : Lives clock p (a ++ b) p2 (w1 ++ w2) := by
  induction h1 with
  | done => exact h2
  | stops => simp at ha
  | error he _ ih => exact .error he (ih (fun h => ha (List.mem_cons_of_mem _ h)) h2)
  | frame hs hh _ ih =>
    rw [List.append_assoc]
    exact .frame hs hh (ih (fun h => ha (List.mem_cons_of_mem _ h)) h2)

theorem framed_no_eof (ps : List Bytes) : (.error .eof : Except Err Slice) ∉ framed ps := by simp [framed]

/-- One packet in a frame of its own. -/
theorem lives_packet {clock : Clock} {p p1 p2 : Pod} {packet : Bytes} {ss : List Say} {rest : List (Except Err Slice)} {w : List Bytes}
    (h0 : packet ≠ []) (h1 : packet.length < 256) (h : p.hears clock packet = some (p1, ss)) (h2 : Lives clock p1 rest p2 w) :
    Lives clock p (framed [packet] ++ rest) p2 (ss.map (Say.frame p1.trx) ++ w) := by
  refine .frame (scan_framed h0 h1) ?_ h2
  simp only [Pod.hearsAll, h, List.append_nil]

theorem written_of_lives {clock : Clock} {s : Srv DevGeneral} {reads : List (Except Err Slice)} {p : Pod} {w : List Bytes}
    (h : Lives clock (podS s) reads p w) : written (processFrames devGeneral clock reads s) = .ret w := by
  obtain ⟨s', h, _⟩ := (Props.C110_session clock reads s p w).2 h
  rw [h]; rfl

/-! ### single packets -/

theorem hears_eq {clock : Clock} {p : Pod} {packet r b : Bytes} {l : UInt8} {c : UInt16} {t : Option UInt16} {ls : List (Option Nat)}
    {f : Reaction} (h1 : splitID packet = some (l, c, r)) (h2 : lengthsOf l c = ls) (h3 : hear (trxAfter l c p.trx) ls r = .message t b)
    (h4 : reactions.lookup (l, c) = some f) : p.hears clock packet = f { p with trx := trxAfter l c p.trx } (clock p.looks) t b := by
  simp only [Pod.hears, h1, h2, h3, reactionTo, h4]

/-- Asked for the maximal payload, with transaction 1. -/
theorem hears_payload (clock : Clock) (p : Pod) :
    p.hears clock [0x00, 0x11, 0x00, 0x01] = some (p, [⟨0x00, 0x12, some 1, some [0xFF, 0xFF]⟩]) := by
  rw [hears_eq (ls := [some 0]) (r := [0x00, 0x01]) (l := 0x00) (c := 0x11) (t := some 1) (b := []) (by decide +kernel)
    (by decide +kernel) (by cases p.trx <;> decide +kernel) rfl]
  rfl

/-- Asked for the UI mode. -/
theorem hears_ui (clock : Clock) (p : Pod) : p.hears clock [0x00, 0x35] = some (p, [⟨0x00, 0x36, none, some [p.ui]⟩]) := by
  rw [hears_eq (ls := [some 0]) (r := []) (l := 0x00) (c := 0x35) (t := none) (b := []) (by decide +kernel)
    (by decide +kernel) (by cases p.trx <;> decide +kernel) rfl]
  rfl

/-- The identification ends, without transaction. -/
theorem hears_end (clock : Clock) (p : Pod) : p.hears clock [0x00, 0x3B, 0x00] =
    some ({ p with asked := p.asked + 1 }, [⟨0x00, 0x3C, none, some [0x00]⟩, ⟨0x00, 0x14, some (p.asked + 1), some []⟩]) := by
  rw [hears_eq (ls := [some 1]) (r := [0x00]) (l := 0x00) (c := 0x3B) (t := none) (b := [0x00]) (by decide +kernel)
    (by decide +kernel) (by cases p.trx <;> decide +kernel) rfl]
  rfl

/-- It starts, without transaction. -/
theorem hears_start (clock : Clock) (p : Pod) : p.hears clock [0x00, 0x38] =
    some ({ p with trx := true, asked := 0 }, [⟨0x00, 0x02, none, some [0x00, 0x38]⟩]) := by
  rw [hears_eq (ls := [some 0]) (r := []) (l := 0x00) (c := 0x38) (t := none) (b := []) (by decide +kernel)
    (by decide +kernel) (by cases p.trx <;> decide +kernel) rfl]
  rfl

/-- Asked for the time. -/
theorem hears_time (clock : Clock) (p : Pod) : p.hears clock [0x03, 0x0C, 0x09] =
    some ({ p with looks := p.looks + 1 }, [⟨0x03, 0x0D, none, some (0x09 :: [UInt8.ofNat ((clock p.looks).year.toNat / 256),
      UInt8.ofNat ((clock p.looks).year.toNat % 256), (clock p.looks).month, (clock p.looks).day, (clock p.looks).hour,
      (clock p.looks).minute])⟩]) := by
  rw [hears_eq (ls := [some 1]) (r := [0x09]) (l := 0x03) (c := 0x0C) (t := none) (b := [0x09]) (by decide +kernel)
    (by decide +kernel) (by cases p.trx <;> decide +kernel) rfl]
  rfl

/-- Told to enter the extended interface. -/
theorem hears_enter (clock : Clock) (p : Pod) : ∃ ss, p.hears clock [0x00, 0x05] = some ({ p with ui := 1 }, ss) := by
  rw [hears_eq (ls := [some 0]) (r := []) (l := 0x00) (c := 0x05) (t := none) (b := []) (by decide +kernel)
    (by decide +kernel) (by cases p.trx <;> decide +kernel) rfl]
  obtain ⟨m, u, a, n⟩ := p
  by_cases h : u = 1
  · subst h; exact ⟨_, rfl⟩
  · refine ⟨[⟨0x00, 0x02, none, some [0x06, 0x05, 0x00, 0x00, 0x01, 0x2C]⟩, ⟨0x00, 0x02, none, some [0x00, 0x05]⟩], ?_⟩
    have : ((u == 0x01) : Bool) = false := by simpa using h
    simp only [turnsUI, this]
    rfl

/-- Told to leave it. -/
theorem hears_leave (clock : Clock) (p : Pod) (h : p.ui = 0 ∨ p.ui = 1) :
    ∃ ss, p.hears clock [0x00, 0x06] = some ({ p with ui := 0 }, ss) := by
  rw [hears_eq (ls := [some 0]) (r := []) (l := 0x00) (c := 0x06) (t := none) (b := []) (by decide +kernel)
    (by decide +kernel) (by cases p.trx <;> decide +kernel) rfl]
  obtain ⟨m, u, a, n⟩ := p
  rcases h with h | h <;> simp only at h <;> subst h <;> exact ⟨_, rfl⟩

/-- Requested to identify. -/
theorem hears_request (clock : Clock) (p : Pod) : p.hears clock [0x00, 0x00] = some ({ p with trx := false }, []) := by
  have h1 : splitID [0x00, 0x00] = some (0x00, 0x00, []) := by decide +kernel
  have h2 : lengthsOf 0x00 0x00 = [some 0] := by decide +kernel
  have h3 : ∀ m, trxAfter 0x00 0x00 m = false := by decide +kernel
  have h4 : hear false [some 0] [] = .message none [] := by decide +kernel
  have h5 : (reactions.lookup ((0x00 : UInt8), (0x00 : UInt16))).isNone = true := rfl
  simp only [Pod.hears, h1, h2, h3, h4, reactionTo]
  cases h : reactions.lookup ((0x00 : UInt8), (0x00 : UInt16)) with
  | none => rfl
  | some f => rw [h] at h5; cases h5

/-! ### the UI mode is one of two -/

def TwoModes (f : Reaction) : Prop :=
  ∀ p n t b p' ss, f p n t b = some (p', ss) → p'.ui = p.ui ∨ p'.ui = 0 ∨ p'.ui = 1

theorem two_says {l : UInt8} {c : UInt16} {f : Pod → Bytes → Bytes} : TwoModes (says l c f) := by
  intro p n t b p' ss e
  simp only [says, Option.some.injEq, Prod.mk.injEq] at e
  rw [← e.1]; exact .inl rfl

theorem two_just {l : UInt8} {c : UInt16} {body : Bytes} : TwoModes (saysJust l c body) := two_says

theorem two_fails {l : UInt8} {c : UInt16} : TwoModes (failsToSay l c) := by
  intro p n t b p' ss e
  simp only [failsToSay, Option.some.injEq, Prod.mk.injEq] at e
  rw [← e.1]; exact .inl rfl

theorem two_ui {c m : UInt8} {d : UInt8 → Bool} (hm : m = 0 ∨ m = 1) : TwoModes (turnsUI c m d) := by
  intro p n t b p' ss e
  unfold turnsUI at e
  split at e <;> simp only [Option.some.injEq, Prod.mk.injEq] at e <;> rw [← e.1]
  · exact .inl rfl
  · exact .inr hm

theorem two_identifies : TwoModes identifies := by
  intro p n t b p' ss e
  simp only [identifies, Option.some.injEq, Prod.mk.injEq] at e
  rw [← e.1]; exact .inl rfl

theorem two_certified : TwoModes certified := by
  intro p n t b p' ss e
  simp only [certified] at e
  repeat' split at e
  all_goals simp only [Option.some.injEq, Prod.mk.injEq] at e
  all_goals rw [← e.1]; exact .inl rfl

theorem two_ends : TwoModes endsIDPS := by
  intro p n t b p' ss e
  simp only [endsIDPS] at e
  split at e
  all_goals simp only [Option.some.injEq, Prod.mk.injEq] at e
  all_goals rw [← e.1]; exact .inl rfl

theorem two_tokens : TwoModes takesTokens := by
  intro p n t b p' ss e
  simp only [takesTokens] at e
  repeat' split at e
  all_goals first | (cases e; done) | skip
  all_goals simp only [Option.some.injEq, Prod.mk.injEq] at e
  all_goals rw [← e.1]; exact .inl rfl

theorem two_launches : TwoModes launches := by
  intro p n t b p' ss e
  simp only [launches] at e
  split at e
  · cases e
  · exact two_just _ _ _ _ _ _ e

theorem two_state : TwoModes tellsState := by
  intro p n t b p' ss e
  simp only [tellsState] at e
  repeat' split at e
  all_goals simp only [Option.some.injEq, Prod.mk.injEq] at e
  all_goals rw [← e.1]; exact .inl rfl

theorem two_track : TwoModes tellsTrack := by
  intro p n t b p' ss e
  simp only [tellsTrack] at e
  repeat' split at e
  all_goals simp only [Option.some.injEq, Prod.mk.injEq] at e
  all_goals rw [← e.1]; exact .inl rfl

theorem two_start : TwoModes (fun p n t b => acks 0x00 0x38 { p with asked := 0 } n t b) := by
  intro p n t b p' ss e
  exact two_just (l := 0x00) (c := 0x02) (body := [0x00, 0x38]) { p with asked := 0 } n t b p' ss e

theorem reactions_two : ∀ e ∈ reactions, TwoModes e.2 := by
  unfold reactions acks dispAcks extAcks
  simp only [List.forall_mem_cons, List.not_mem_nil, false_imp_iff, implies_true, and_true]
  repeat' constructor
  all_goals first
    | exact two_just
    | exact two_says
    | exact two_fails
    | exact two_ui (.inl rfl)
    | exact two_ui (.inr rfl)
    | exact two_identifies
    | exact two_certified
    | exact two_ends
    | exact two_tokens
    | exact two_launches
    | exact two_state
    | exact two_track
    | exact two_start

theorem hears_two {clock : Clock} {p p' : Pod} {packet : Bytes} {ss : List Say} (h : p.hears clock packet = some (p', ss)) :
    p'.ui = p.ui ∨ p'.ui = 0 ∨ p'.ui = 1 := by
  unfold Pod.hears at h
  split at h
  · simp only [Option.some.injEq, Prod.mk.injEq] at h; rw [← h.1]; exact .inl rfl
  · rename_i l c r _
    simp only at h
    split at h
    · simp only [Option.some.injEq, Prod.mk.injEq] at h; rw [← h.1]; exact .inl rfl
    · simp only [Option.some.injEq, Prod.mk.injEq] at h; rw [← h.1]; exact .inl rfl
    · unfold reactionTo at h
      cases hf : reactions.lookup (l, c) with
      | some f =>
        simp only [hf] at h
        exact reactions_two _ (lookup_mem hf) { p with trx := trxAfter l c p.trx } _ _ _ _ _ h
      | none => simp only [hf, Option.some.injEq, Prod.mk.injEq] at h; rw [← h.1]; exact .inl rfl

theorem hearsAll_two {clock : Clock} {packets : List Bytes} : ∀ {p p' : Pod} {ss : List Say}, p.hearsAll clock packets = some (p', ss) →
    p.ui = 0 ∨ p.ui = 1 → p'.ui = 0 ∨ p'.ui = 1 := by
  induction packets with
  | nil =>
    intro p p' ss h hu
    simp only [Pod.hearsAll, Option.some.injEq, Prod.mk.injEq] at h
    rw [← h.1]; exact hu
  | cons packet more ih =>
    intro p p' ss h hu
    simp only [Pod.hearsAll] at h
    cases h1 : p.hears clock packet with
    | none => simp only [h1] at h; cases h
    | some x =>
      obtain ⟨pa, sa⟩ := x
      simp only [h1] at h
      cases h2 : pa.hearsAll clock more with
      | none => simp only [h2] at h; cases h
      | some z =>
        obtain ⟨pb, sb⟩ := z
        simp only [h2, Option.some.injEq, Prod.mk.injEq] at h
        rw [← h.1]
        refine ih h2 ?_
        rcases hears_two h1 with h | h
        · rw [h]; exact hu
        · exact h

theorem lives_two {clock : Clock} {p p' : Pod} {reads : List (Except Err Slice)} {w : List Bytes} (h : Lives clock p reads p' w)
    (hu : p.ui = 0 ∨ p.ui = 1) : p'.ui = 0 ∨ p'.ui = 1 := by
  induction h with
  | done => exact hu
  | stops => exact hu
  | error _ _ ih => exact ih hu
  | frame _ hh _ ih => exact ih (hearsAll_two hh hu)

/-! ### the same packet again and again -/

/-- Asked for the time, `k` times. -/
theorem lives_times (clock : Clock) (k : Nat) : ∀ p : Pod,
    Lives clock p (framed (List.replicate k [0x03, 0x0C, 0x09])) { p with looks := p.looks + k }
      ((List.range k).map fun i => frameBytes [0x03, 0x0D, 0x09, UInt8.ofNat ((clock (p.looks + i)).year.toNat / 256),
        UInt8.ofNat ((clock (p.looks + i)).year.toNat % 256), (clock (p.looks + i)).month, (clock (p.looks + i)).day,
        (clock (p.looks + i)).hour, (clock (p.looks + i)).minute]) := by
  induction k with
  | zero => intro p; exact .done
  | succ k ih =>
    intro p
    have h := lives_packet (by decide) (by decide) (hears_time clock p) (ih { p with looks := p.looks + 1 })
    have e : p.looks + (k + 1) = p.looks + 1 + k := by omega
    rw [e, List.range_succ_eq_map, List.map_cons, List.map_map]
    have hf : ∀ i, p.looks + 1 + i = p.looks + (i + 1) := fun i => by omega
    simp only [hf] at h
    have : Say.frame p.trx ⟨0x03, 0x0D, none, some (0x09 :: [UInt8.ofNat ((clock p.looks).year.toNat / 256),
      UInt8.ofNat ((clock p.looks).year.toNat % 256), (clock p.looks).month, (clock p.looks).day, (clock p.looks).hour,
      (clock p.looks).minute])⟩ = frameBytes [0x03, 0x0D, 0x09, UInt8.ofNat ((clock p.looks).year.toNat / 256),
        UInt8.ofNat ((clock p.looks).year.toNat % 256), (clock p.looks).month, (clock p.looks).day,
        (clock p.looks).hour, (clock p.looks).minute] := by cases p.trx <;> rfl
    simp only [List.map_cons, List.map_nil, this, List.singleton_append] at h
    rw [hf]
    exact h

/-- The identification ends, `k` times. -/
theorem lives_ends (clock : Clock) (k : Nat) : ∀ p : Pod,
    ∃ w, Lives clock p (framed (List.replicate k [0x00, 0x3B, 0x00])) { p with asked := p.asked + UInt16.ofNat k } w := by
  induction k with
  | zero =>
    intro p
    have e : p.asked + UInt16.ofNat 0 = p.asked := by simp
    rw [e]; exact ⟨_, .done⟩
  | succ k ih =>
    intro p
    obtain ⟨w, h⟩ := ih { p with asked := p.asked + 1 }
    have h := lives_packet (by decide) (by decide) (hears_end clock p) h
    have e : p.asked + UInt16.ofNat (k + 1) = p.asked + 1 + UInt16.ofNat k := by
      rw [UInt16.ofNat_add, UInt16.add_assoc, UInt16.add_comm (UInt16.ofNat k)]; rfl
    rw [e]
    exact ⟨_, h⟩

end Ipod
