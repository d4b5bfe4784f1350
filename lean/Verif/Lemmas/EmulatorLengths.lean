import Verif.Lemmas.EmulatorWire

/-!
# How long the answers of the specified iPod are
-/

namespace Ipod
open Go Spec

theorem hear_length {on : Bool} {n : Nat} {r b : Bytes} {t : Option UInt16} (h : hear on [some n] r = .message t b) :
    b.length = n := by
  unfold hear at h
  by_cases h1 : n = r.length
  · have : List.find? (fitsLength r) [some n] = some (some n) := by simp [List.find?, fitsLength, h1]
    subst h1
    simp only [this, if_true, Hearing.message.injEq] at h
    rw [← h.2]
  · by_cases h2 : n + 2 = r.length
    · have : List.find? (fitsLength r) [some n] = some (some n) := by simp [List.find?, fitsLength, h2]
      have h3 : ¬ (some n = some r.length) := by simpa using h1
      simp only [this, if_neg h3] at h
      match r, h, h2 with
      | _ :: _ :: r, h, h2 =>
        simp only [splitTrx, Hearing.message.injEq] at h
        rw [← h.2]; simpa using h2.symm
    · have : List.find? (fitsLength r) [some n] = none := by simp [List.find?, fitsLength, h1, h2]
      simp only [this] at h
      split at h
      · cases h
      · rename_i t' b' _
        unfold cutBody at h
        by_cases hl : b'.length < n
        · simp [hl] at h
        · simp only [if_neg hl, Hearing.message.injEq] at h
          rw [← h.2, List.length_take]; omega

/-- A body of at most `n` bytes, if it can be written. -/
def BodyUpTo (n : Nat) (s : Say) : Prop := ∀ b, s.body = some b → b.length ≤ n

/-- At most two bytes of acknowledgement. -/
def SmallFate : TokenFate → Prop
  | .acked (some o) => o.length ≤ 2
  | _ => True

theorem ackedFrom_small (n : Nat) (b : Bytes) : SmallFate (ackedFrom n b) := by
  unfold ackedFrom; split <;> simp [SmallFate]

theorem fate_small (x y : UInt8) (b : Bytes) : SmallFate (tokenFate x y b) := by
  unfold tokenFate
  repeat' first
    | exact ackedFrom_small _ _
    | exact trivial
    | exact Nat.le_refl 2
    | exact Nat.le_succ 1
    | split

theorem acks_length (n : Nat) : ∀ (r a : Bytes), tokenFates n r = some (some (some a)) → a.length ≤ 5 * n := by
  induction n with
  | zero => intro r a h; simp only [tokenFates, Option.some.injEq] at h; subst h; simp
  | succ n ih =>
    intro r a h
    match r with
    | [] => simp [tokenFates] at h
    | len :: r =>
      simp only [tokenFates] at h
      split at h
      · rename_i x y b _
        split at h
        · cases h
        · cases h
        · rename_i o ho
          split at h
          · rename_i more hm
            cases o with
            | none => simp at h
            | some o =>
              cases more with
              | none => simp at h
              | some more =>
                simp only [Option.bind_some, Option.map_some, Option.some.injEq] at h
                have h1 := ih _ _ hm
                have h2 : o.length ≤ 2 := by
                  have := fate_small x y b
                  rw [ho] at this
                  exact this
                subst h
                simp only [List.length_cons, List.length_append]
                omega
          · rename_i hno
            exact absurd h (fun e => hno _ e)
      · cases h

/-- What a reaction says: bodies of at most 22 bytes, but for the acknowledgement of tokens. -/
def Brief (k : UInt8 × UInt16) (f : Reaction) : Prop :=
  ∀ p n t b p' ss, (∀ m, lengthsOf k.1 k.2 = [some m] → b.length = m) → f p n t b = some (p', ss) →
    ∀ s ∈ ss, BodyUpTo 22 s ∨ (s.lingo = 0x00 ∧ s.cmd = 0x3A ∧ BodyUpTo 1276 s)

theorem brief_says {k : UInt8 × UInt16} {l : UInt8} {c : UInt16} {f : Pod → Bytes → Bytes}
    (h : ∀ p b, (∀ m, lengthsOf k.1 k.2 = [some m] → b.length = m) → (f p b).length ≤ 22) : Brief k (says l c f) := by
  intro p n t b p' ss hb e s hs
  simp only [says, Option.some.injEq, Prod.mk.injEq] at e
  rw [← e.2, List.mem_singleton] at hs
  subst hs
  refine .inl fun b' e' => ?_
  cases e'
  exact h p b hb

theorem brief_just {k : UInt8 × UInt16} {l : UInt8} {c : UInt16} {body : Bytes} (h : body.length ≤ 22) :
    Brief k (saysJust l c body) := brief_says fun _ _ _ => h

theorem brief_fails {k : UInt8 × UInt16} {l : UInt8} {c : UInt16} : Brief k (failsToSay l c) := by
  intro p n t b p' ss hb e s hs
  simp only [failsToSay, Option.some.injEq, Prod.mk.injEq] at e
  rw [← e.2, List.mem_singleton] at hs
  subst hs
  exact .inl fun b' e' => by cases e'

theorem brief_list {k : UInt8 × UInt16} {f : Reaction}
    (h : ∀ p n t b p' ss, f p n t b = some (p', ss) → ∀ s ∈ ss, BodyUpTo 22 s) : Brief k f :=
  fun p n t b p' ss _ e s hs => .inl (h p n t b p' ss e s hs)

theorem brief_ui {k : UInt8 × UInt16} {c m : UInt8} {d : UInt8 → Bool} : Brief k (turnsUI c m d) := by
  refine brief_list ?_
  intro p n t b p' ss e s hs b' hb'
  unfold turnsUI at e
  split at e <;> simp only [Option.some.injEq, Prod.mk.injEq] at e <;> rw [← e.2] at hs <;>
    simp only [List.mem_cons, List.not_mem_nil, or_false] at hs
  · subst hs; cases hb'; simp
  · rcases hs with rfl | rfl <;> cases hb' <;> simp

theorem brief_identifies {k : UInt8 × UInt16} : Brief k identifies := by
  refine brief_list ?_
  intro p n t b p' ss e s hs b' hb'
  simp only [identifies, Option.some.injEq, Prod.mk.injEq] at e
  rw [← e.2] at hs
  rcases List.mem_cons.1 hs with rfl | hs
  · cases hb'; simp
  · split at hs
    · cases hs
    · rw [List.mem_singleton] at hs; subst hs; cases hb'; simp

theorem brief_certified {k : UInt8 × UInt16} : Brief k certified := by
  refine brief_list ?_
  intro p n t b p' ss e s hs b' hb'
  simp only [certified] at e
  repeat' split at e
  all_goals simp only [Option.some.injEq, Prod.mk.injEq] at e
  all_goals rw [← e.2] at hs
  all_goals simp only [List.mem_cons, List.not_mem_nil, or_false] at hs
  · rcases hs with rfl | rfl <;> cases hb' <;> simp
  · subst hs; cases hb'; simp
  · rcases hs with rfl | rfl | rfl <;> cases hb' <;> simp

theorem brief_ends {k : UInt8 × UInt16} : Brief k endsIDPS := by
  refine brief_list ?_
  intro p n t b p' ss e s hs b' hb'
  simp only [endsIDPS] at e
  split at e
  all_goals simp only [Option.some.injEq, Prod.mk.injEq] at e
  all_goals rw [← e.2] at hs
  all_goals simp only [List.mem_cons, List.not_mem_nil, or_false] at hs
  · rcases hs with rfl | rfl <;> cases hb' <;> simp
  · subst hs; cases hb'; simp
  · subst hs; cases hb'; simp

theorem brief_tokens {k : UInt8 × UInt16} : Brief k takesTokens := by
  intro p n t b p' ss _ e s hs
  simp only [takesTokens] at e
  split at e
  · simp only [Option.some.injEq, Prod.mk.injEq] at e; rw [← e.2] at hs; cases hs
  · rename_i n0 r _
    split at e
    · cases e
    · simp only [Option.some.injEq, Prod.mk.injEq] at e; rw [← e.2] at hs; cases hs
    · rename_i a ha
      simp only [Option.some.injEq, Prod.mk.injEq] at e
      rw [← e.2, List.mem_singleton] at hs
      subst hs
      refine .inr ⟨rfl, rfl, fun b' hb' => ?_⟩
      cases a with
      | none => cases hb'
      | some a =>
        cases hb'
        have := acks_length _ _ _ ha
        have := n0.toNat_lt
        simp only [List.length_cons]; omega

theorem brief_launches {k : UInt8 × UInt16} : Brief k launches := by
  refine brief_list ?_
  intro p n t b p' ss e s hs b' hb'
  simp only [launches] at e
  split at e
  · cases e
  · simp only [acks, saysJust, says, Option.some.injEq, Prod.mk.injEq] at e
    rw [← e.2, List.mem_singleton] at hs
    subst hs; cases hb'; simp

/-- At most 21 bytes, if any. -/
def SmallInfo : Option Bytes → Prop
  | some o => o.length ≤ 21
  | none => True

theorem ite_small {c : Prop} [Decidable c] {a b : Option Bytes} (ha : SmallInfo a) (hb : SmallInfo b) :
    SmallInfo (if c then a else b) := by
  split
  · exact ha
  · exact hb

theorem info_small (now : Time) (ty : UInt8) : SmallInfo (stateInfo now ty) := by
  unfold stateInfo
  iterate 16 refine ite_small (by simp [SmallInfo]) ?_
  exact trivial

theorem brief_state {k : UInt8 × UInt16} : Brief k tellsState := by
  refine brief_list ?_
  intro p n t b p' ss e s hs b' hb'
  simp only [tellsState] at e
  split at e
  · rename_i ty
    split at e
    · rename_i info hi
      simp only [Option.some.injEq, Prod.mk.injEq] at e
      rw [← e.2, List.mem_singleton] at hs
      subst hs; cases hb'
      have := info_small n ty
      rw [hi] at this
      exact Nat.succ_le_succ this
    · simp only [Option.some.injEq, Prod.mk.injEq] at e; rw [← e.2] at hs; cases hs
  · simp only [Option.some.injEq, Prod.mk.injEq] at e; rw [← e.2] at hs; cases hs

theorem brief_track {k : UInt8 × UInt16} : Brief k tellsTrack := by
  refine brief_list ?_
  intro p n t b p' ss e s hs b' hb'
  simp only [tellsTrack] at e
  repeat' split at e
  all_goals simp only [Option.some.injEq, Prod.mk.injEq] at e
  all_goals rw [← e.2] at hs
  all_goals simp only [List.mem_cons, List.not_mem_nil, or_false] at hs
  all_goals (subst hs; cases hb'; simp)

theorem brief_start {k : UInt8 × UInt16} : Brief k (fun p n t b => acks 0x00 0x38 { p with asked := 0 } n t b) := by
  refine brief_list ?_
  intro p n t b p' ss e s hs b' hb'
  simp only [acks, saysJust, says, Option.some.injEq, Prod.mk.injEq] at e
  rw [← e.2, List.mem_singleton] at hs
  subst hs; cases hb'; simp

theorem podVersion_length (l : UInt8) : (podVersion l).length = 2 := by
  unfold podVersion; repeat' split
  all_goals rfl
theorem podOptions_length (l : UInt8) : (podOptions l).length = 8 := by
  unfold podOptions; repeat' split
  all_goals rfl
theorem extTrack_length (b : Bytes) : (extTrack b).length ≤ 22 := by
  unfold extTrack
  rw [List.length_append, List.length_take]
  have : ∀ x y : Nat, min 1 x + y ≤ 1 + y := fun x y => by omega
  refine Nat.le_trans (this _ _) ?_
  repeat' split
  all_goals simp

theorem reactions_brief : ∀ e ∈ reactions, Brief e.1 e.2 := by
  unfold reactions acks dispAcks extAcks
  simp only [List.forall_mem_cons, List.not_mem_nil, false_imp_iff, implies_true, and_true]
  have v : ∀ (l : UInt8) (c : UInt16), lengthsOf l c = [some 1] → ∀ b : Bytes, (∀ m, lengthsOf l c = [some m] → b.length = m) → b.length = 1 :=
    fun _ _ h b hb => hb 1 h
  repeat' constructor
  all_goals first
    | exact brief_just (by simp; done)
    | exact brief_fails
    | exact brief_ui
    | exact brief_identifies
    | exact brief_certified
    | exact brief_ends
    | exact brief_tokens
    | exact brief_launches
    | exact brief_state
    | exact brief_track
    | exact brief_start
    | skip
  · exact brief_says fun p b h => by simp
  · refine brief_says fun p b h => ?_
    have := v _ _ (by decide +kernel) b h
    rw [List.length_append, podVersion_length]; omega
  · exact brief_says fun p b h => by rw [List.length_take]; omega
  · refine brief_says fun p b h => ?_
    have := v _ _ (by decide +kernel) b h
    rw [List.length_append]; simp; omega
  · exact brief_says fun p b h => by simp
  · refine brief_says fun p b h => ?_
    have := v _ _ (by decide +kernel) b h
    rw [List.length_append, podOptions_length]; omega
  · exact brief_says fun p b h => extTrack_length b

theorem lookup_mem {α β : Type} [BEq α] [LawfulBEq α] {l : List (α × β)} {a : α} {b : β} (h : l.lookup a = some b) : (a, b) ∈ l := by
  induction l with
  | nil => cases h
  | cons x l ih =>
    obtain ⟨k, v⟩ := x
    rw [List.lookup_cons] at h
    split at h
    · rename_i hk
      cases h
      simp only [beq_iff_eq] at hk
      rw [hk]; exact List.mem_cons_self ..
    · exact List.mem_cons_of_mem _ (ih h)

theorem hears_brief {clock : Clock} {p p' : Pod} {packet : Bytes} {ss : List Say} (h : p.hears clock packet = some (p', ss)) :
    ∀ s ∈ ss, BodyUpTo 22 s ∨ (s.lingo = 0x00 ∧ s.cmd = 0x3A ∧ BodyUpTo 1276 s) := by
  intro s hs
  unfold Pod.hears at h
  split at h
  · simp only [Option.some.injEq, Prod.mk.injEq] at h; rw [← h.2] at hs; cases hs
  · rename_i l c r _
    simp only at h
    split at h
    · simp only [Option.some.injEq, Prod.mk.injEq] at h
      rw [← h.2] at hs
      split at hs
      · rw [List.mem_singleton] at hs; subst hs
        refine .inl fun b hb => ?_
        cases hb; simp
      · cases hs
    · simp only [Option.some.injEq, Prod.mk.injEq] at h; rw [← h.2] at hs; cases hs
    · rename_i t b hh
      have hb : ∀ m, lengthsOf l c = [some m] → b.length = m := fun m hm => by
        rw [hm] at hh; exact hear_length hh
      unfold reactionTo at h
      cases hf : reactions.lookup (l, c) with
      | some f =>
        simp only [hf] at h
        exact reactions_brief _ (lookup_mem hf) _ _ _ _ _ _ hb h s hs
      | none => simp only [hf, Option.some.injEq, Prod.mk.injEq] at h; rw [← h.2] at hs; cases hs

end Ipod
