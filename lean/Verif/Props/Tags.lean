import Verif.Model.Tags
import Verif.Spec.Tag
import Verif.Lemmas.Lingo

/-! # Property C86: the ids in the tags of the message structs -/

namespace Props
open Go Spec Ipod

/-! ### Numbers -/

/-- What holds for the 256 bytes. -/
theorem forall_byte {P : UInt8 → Prop} (h : ∀ n : Fin 256, P (UInt8.ofNat n.1)) (c : UInt8) : P c := by
  have := h ⟨c.toNat, c.toNat_lt⟩
  simpa using this

theorem digitVal_table : ∀ n : Fin 256, ∀ d : Fin 16, digitVal (UInt8.ofNat n.1) = some d.1 ↔ digitOf (UInt8.ofNat n.1) = some d.1 := by
  decide +kernel

theorem digitVal_iff (base : Nat) (hb : base ≤ 16) (c : UInt8) (d : Nat) (h : d < base) :
    digitVal c = some d ↔ digitOf c = some d := by
  exact forall_byte (P := fun c => ∀ d : Fin 16, digitVal c = some d.1 ↔ digitOf c = some d.1) digitVal_table c ⟨d, by omega⟩

theorem digitOf_underscore : digitOf 0x5F = none := by decide

theorem numberFrom (base : Nat) (ds : Bytes) (n : Nat) :
    n ≤ ds.foldl (fun n c => n * base + (digitOf c).getD 0) n ∨ base = 0 := by
  by_cases hb : base = 0
  · exact .inr hb
  left
  induction ds generalizing n with
  | nil => exact Nat.le_refl _
  | cons c ds ih =>
    refine Nat.le_trans ?_ (ih _)
    have := Nat.le_mul_of_pos_right n (Nat.pos_of_ne_zero hb)
    exact Nat.le_trans this (Nat.le_add_right _ _)

/-- What the loop of `ParseUint` accepts. -/
theorem parseLoop_iff (base : Nat) (h0 : 0 < base) (h16 : base ≤ 16) (s : Bytes) (n : Nat) (us : Bool) (hn : n ≤ 65535) (m : Nat) (u : Bool) :
    parseLoop base s n us = some (m, u) ↔
      (∀ c ∈ s, c = 0x5F ∨ ∃ d, digitOf c = some d ∧ d < base) ∧
      m = (s.filter (· ≠ 0x5F)).foldl (fun n c => n * base + (digitOf c).getD 0) n ∧ m ≤ 65535 ∧
      u = (us || decide ((0x5F : UInt8) ∈ s)) := by
  induction s generalizing n us with
  | nil =>
    simp only [parseLoop, Option.some.injEq, Prod.mk.injEq, List.filter_nil, List.foldl_nil, List.not_mem_nil, decide_false, Bool.or_false]
    constructor
    · rintro ⟨rfl, rfl⟩; exact ⟨fun _ h => h.elim, rfl, hn, rfl⟩
    · rintro ⟨_, rfl, _, rfl⟩; exact ⟨rfl, rfl⟩
  | cons c s ih =>
    by_cases hc : c = 0x5F
    · subst hc
      rw [parseLoop, if_pos rfl, ih _ _ hn]
      simp
    · rw [parseLoop, if_neg hc, List.filter_cons_of_pos (by simpa using hc), List.foldl_cons]
      rw [show decide ((0x5F : UInt8) ∈ c :: s) = decide ((0x5F : UInt8) ∈ s) from by simp [Ne.symm hc]]
      cases hd : digitVal c with
      | none =>
        simp only [reduceCtorEq, false_iff]
        rintro ⟨h, _⟩
        rcases h c (by simp) with h | ⟨d, h, hlt⟩
        · exact hc h
        · rw [← digitVal_iff base h16 c d hlt, hd] at h; cases h
      | some d =>
        dsimp only
        by_cases hge : d ≥ base
        · rw [if_pos hge]
          simp only [reduceCtorEq, false_iff]
          rintro ⟨h, _⟩
          rcases h c (by simp) with h | ⟨d', h, hlt⟩
          · exact hc h
          · rw [← digitVal_iff base h16 c d' hlt, hd] at h; cases h; omega
        · have hd' := (digitVal_iff base h16 c d (by omega)).1 hd
          rw [if_neg hge, hd', Option.getD_some]
          by_cases hbig : n * base + d > 65535
          · rw [if_pos hbig]
            simp only [reduceCtorEq, false_iff]
            rintro ⟨_, h, hm, _⟩
            rcases numberFrom base (s.filter (· ≠ 0x5F)) (n * base + d) with h' | h'
            · omega
            · omega
          · rw [if_neg hbig, ih _ _ (by omega)]
            constructor
            · rintro ⟨h1, h2⟩
              refine ⟨fun x hx => ?_, h2⟩
              rcases List.mem_cons.1 hx with rfl | hx
              · exact .inr ⟨d, hd', by omega⟩
              · exact h1 x hx
            · rintro ⟨h1, h2⟩
              exact ⟨fun x hx => h1 x (by simp [hx]), h2⟩

/-! ### Underscores -/

/-- A digit as `underscoreOK` sees it. -/
abbrev okDigit (hex : Bool) (c : UInt8) : Prop := (0x30 ≤ c ∧ c ≤ 0x39) ∨ (hex ∧ 0x61 ≤ lower c ∧ lower c ≤ 0x66)

theorem okDigit_table : ∀ n : Fin 256, (∀ d : Fin 10, digitOf (UInt8.ofNat n.1) = some d.1 →
      0x30 ≤ UInt8.ofNat n.1 ∧ UInt8.ofNat n.1 ≤ 0x39) ∧
    (∀ d : Fin 16, digitOf (UInt8.ofNat n.1) = some d.1 → (0x30 ≤ UInt8.ofNat n.1 ∧ UInt8.ofNat n.1 ≤ 0x39) ∨
      (0x61 ≤ lower (UInt8.ofNat n.1) ∧ lower (UInt8.ofNat n.1) ≤ 0x66)) := by decide +kernel

theorem okDigit_of {base : Nat} {hex : Bool} (h : base ≤ 10 ∨ base ≤ 16 ∧ hex = true) {c : UInt8} {d : Nat} (hd : digitOf c = some d)
    (hb : d < base) : okDigit hex c := by
  have key := forall_byte (P := fun c => (∀ d : Fin 10, digitOf c = some d.1 → 0x30 ≤ c ∧ c ≤ 0x39) ∧
    (∀ d : Fin 16, digitOf c = some d.1 → (0x30 ≤ c ∧ c ≤ 0x39) ∨ (0x61 ≤ lower c ∧ lower c ≤ 0x66))) okDigit_table c
  rcases h with h | ⟨h, rfl⟩
  · exact .inl (key.1 ⟨d, by omega⟩ hd)
  · rcases key.2 ⟨d, by omega⟩ hd with h | h
    · exact .inl h
    · exact .inr ⟨rfl, h⟩

theorem not_okDigit_underscore (hex : Bool) : ¬ okDigit hex 0x5F := by cases hex <;> decide

/-- Groups of digits, as `Grouped`, the first of which may be missing. -/
def Rest (base : Nat) (s : Bytes) (first : Bool) : Prop :=
  ∃ (g : Bytes) (gs : List Bytes), Digits base g ∧ (first = true → g ≠ []) ∧ (∀ x ∈ gs, x ≠ [] ∧ Digits base x) ∧ s = g ++ gs.flatMap (0x5F :: ·)

theorem rest_digit {base : Nat} {c : UInt8} {s : Bytes} {d : Nat} (hd : digitOf c = some d) (hb : d < base) (b : Bool) :
    Rest base (c :: s) b ↔ Rest base s false := by
  constructor
  · rintro ⟨g, gs, h1, h2, h3, h4⟩
    cases g with
    | nil =>
      cases gs with
      | nil => cases h4
      | cons x gs =>
        simp only [List.nil_append, List.flatMap_cons, List.cons_append, List.cons.injEq] at h4
        rw [h4.1, digitOf_underscore] at hd; cases hd
    | cons c' g =>
      simp only [List.cons_append, List.cons.injEq] at h4
      exact ⟨g, gs, fun x hx => h1 x (by simp [hx]), nofun, h3, h4.2⟩
  · rintro ⟨g, gs, h1, h2, h3, h4⟩
    refine ⟨c :: g, gs, ?_, fun _ => by simp, h3, by rw [h4]; rfl⟩
    intro x hx
    rcases List.mem_cons.1 hx with rfl | hx
    · exact ⟨d, hd, hb⟩
    · exact h1 x hx

theorem rest_underscore {base : Nat} {s : Bytes} : Rest base (0x5F :: s) false ↔ Rest base s true := by
  constructor
  · rintro ⟨g, gs, h1, h2, h3, h4⟩
    cases g with
    | nil =>
      cases gs with
      | nil => cases h4
      | cons x gs =>
        simp only [List.nil_append, List.flatMap_cons, List.cons_append, List.cons.injEq, true_and] at h4
        exact ⟨x, gs, (h3 x (by simp)).2, fun _ => (h3 x (by simp)).1, fun y hy => h3 y (by simp [hy]), h4⟩
    | cons c' g =>
      simp only [List.cons_append, List.cons.injEq] at h4
      obtain ⟨d, hd, _⟩ := h1 c' (by simp)
      rw [← h4.1, digitOf_underscore] at hd; cases hd
  · rintro ⟨g, gs, h1, h2, h3, h4⟩
    refine ⟨[], g :: gs, nofun, nofun, ?_, by rw [h4]; rfl⟩
    intro x hx
    rcases List.mem_cons.1 hx with rfl | hx
    · exact ⟨h2 rfl, h1⟩
    · exact h3 x hx

theorem not_rest_underscore {base : Nat} {s : Bytes} : ¬ Rest base (0x5F :: s) true := by
  rintro ⟨g, gs, h1, h2, h3, h4⟩
  cases g with
  | nil => exact h2 rfl rfl
  | cons c' g =>
    simp only [List.cons_append, List.cons.injEq] at h4
    obtain ⟨d, hd, _⟩ := h1 c' (by simp)
    rw [← h4.1, digitOf_underscore] at hd; cases hd

/-- What `underscoreOK` accepts of digits and underscores. -/
theorem underscoreLoop_iff {base : Nat} {hex : Bool} (h : base ≤ 10 ∨ base ≤ 16 ∧ hex = true) (s : Bytes)
    (hs : ∀ c ∈ s, c = 0x5F ∨ ∃ d, digitOf c = some d ∧ d < base) :
    (underscoreLoop hex 0x30 s = true ↔ Rest base s false) ∧ (underscoreLoop hex 0x5F s = true ↔ Rest base s true) ∧
    (s ≠ [] → (underscoreLoop hex 0x5E s = true ↔ Rest base s true)) := by
  induction s with
  | nil =>
    refine ⟨?_, ?_, fun h => absurd rfl h⟩
    · simp only [underscoreLoop]
      exact ⟨fun _ => ⟨[], [], fun x hx => (by cases hx), fun h => (by cases h), fun x hx => (by cases hx), rfl⟩, fun _ => by decide⟩
    · simp only [underscoreLoop, ne_eq, not_true_eq_false, decide_false, Bool.false_eq_true, false_iff]
      rintro ⟨g, gs, h1, h2, h3, h4⟩
      exact h2 rfl (List.append_eq_nil_iff.1 h4.symm).1
  | cons c s ih =>
    have ih := ih (fun x hx => hs x (by simp [hx]))
    by_cases hc : c = 0x5F
    · subst hc
      have hno := not_okDigit_underscore hex
      have step : ∀ i, underscoreLoop hex i (0x5F :: s) = if i ≠ 0x30 then false else underscoreLoop hex 0x5F s := by
        intro i
        rw [underscoreLoop, if_neg hno, if_pos rfl]
      refine ⟨?_, ?_, fun _ => ?_⟩
      · rw [step, if_neg (by decide), rest_underscore]; exact ih.2.1
      · rw [step, if_pos (by decide)]
        simp [not_rest_underscore]
      · rw [step, if_pos (by decide)]
        simp [not_rest_underscore]
    · obtain ⟨d, hd, hb⟩ : ∃ d, digitOf c = some d ∧ d < base := by
        rcases hs c (by simp) with h | h
        · exact absurd h hc
        · exact h
      have step : ∀ i, underscoreLoop hex i (c :: s) = underscoreLoop hex 0x30 s := by
        intro i
        rw [underscoreLoop, if_pos (okDigit_of h hd hb)]
      refine ⟨?_, ?_, fun _ => ?_⟩ <;> rw [step, rest_digit hd hb] <;> exact ih.1

/-! ### Literals -/

/-- Digits and underscores only. -/
def Clean (base : Nat) (s : Bytes) : Prop := ∀ c ∈ s, c = 0x5F ∨ ∃ d, digitOf c = some d ∧ d < base

theorem filter_digits {base : Nat} {g : Bytes} (h : Digits base g) : g.filter (· ≠ 0x5F) = g := by
  rw [List.filter_eq_self]
  intro c hc
  obtain ⟨d, hd, _⟩ := h c hc
  have : c ≠ 0x5F := by rintro rfl; rw [digitOf_underscore] at hd; cases hd
  simpa using this

theorem filter_groups {base : Nat} {gs : List Bytes} (h : ∀ x ∈ gs, x ≠ [] ∧ Digits base x) :
    (gs.flatMap (0x5F :: ·)).filter (· ≠ 0x5F) = gs.flatten := by
  induction gs with
  | nil => rfl
  | cons g gs ih =>
    rw [List.flatMap_cons, List.filter_append, ih (fun x hx => h x (by simp [hx])), List.filter_cons_of_neg (by simp),
      filter_digits (h g (by simp)).2, List.flatten_cons]

theorem clean_groups {base : Nat} {g : Bytes} {gs : List Bytes} (h0 : Digits base g) (h : ∀ x ∈ gs, x ≠ [] ∧ Digits base x) :
    Clean base (g ++ gs.flatMap (0x5F :: ·)) := by
  intro c hc
  rcases List.mem_append.1 hc with hc | hc
  · exact .inr (h0 c hc)
  · obtain ⟨x, hx, hc⟩ := List.mem_flatMap.1 hc
    rcases List.mem_cons.1 hc with rfl | hc
    · exact .inl rfl
    · exact .inr ((h x hx).2 c hc)

theorem grouped_iff {base : Nat} {s : Bytes} {n : Nat} :
    Grouped base s n ↔ Clean base s ∧ Rest base s true ∧ n = numberOf base (s.filter (· ≠ 0x5F)) := by
  constructor
  · rintro ⟨g, gs, h1, rfl, rfl⟩
    have hg := h1 g (by simp)
    have hgs : ∀ x ∈ gs, x ≠ [] ∧ Digits base x := fun x hx => h1 x (by simp [hx])
    exact ⟨clean_groups hg.2 hgs, ⟨g, gs, hg.2, fun _ => hg.1, hgs, rfl⟩, by
      rw [List.filter_append, filter_digits hg.2, filter_groups hgs]⟩
  · rintro ⟨_, ⟨g, gs, h1, h2, h3, rfl⟩, rfl⟩
    refine ⟨g, gs, ?_, rfl, by rw [List.filter_append, filter_digits h1, filter_groups h3]⟩
    intro x hx
    rcases List.mem_cons.1 hx with rfl | hx
    · exact ⟨h2 rfl, h1⟩
    · exact h3 x hx

theorem rest_digits {base : Nat} {s : Bytes} (h : Clean base s) (hu : (0x5F : UInt8) ∉ s) (hs : s ≠ []) : Rest base s true := by
  refine ⟨s, [], ?_, fun _ => hs, by simp, by simp⟩
  intro c hc
  rcases h c hc with rfl | h
  · exact absurd hc hu
  · exact h

theorem rest_weak {base : Nat} {s : Bytes} (h : Rest base s true) : Rest base s false := by
  obtain ⟨g, gs, h1, _, h3, h4⟩ := h
  exact ⟨g, gs, h1, nofun, h3, h4⟩

theorem rest_false_iff {base : Nat} {s : Bytes} (hs : s ≠ []) :
    Rest base s false ↔ Rest base s true ∨ ∃ s', s = 0x5F :: s' ∧ Rest base s' true := by
  constructor
  · rintro ⟨g, gs, h1, h2, h3, h4⟩
    cases g with
    | cons c g => exact .inl ⟨c :: g, gs, h1, fun _ => by simp, h3, h4⟩
    | nil =>
      cases gs with
      | nil => exact absurd h4 hs
      | cons x gs =>
        refine .inr ⟨x ++ gs.flatMap (0x5F :: ·), h4, x, gs, (h3 x (by simp)).2, fun _ => (h3 x (by simp)).1, ?_, rfl⟩
        exact fun y hy => h3 y (by simp [hy])
  · rintro (h | ⟨s', rfl, h⟩)
    · exact rest_weak h
    · exact rest_underscore.2 h

/-- `ParseUint` with no prefix to be skipped. -/
theorem parse_plain {base : Nat} (h0 : 0 < base) (h : base ≤ 10) {s : Bytes} (hs : s ≠ []) (n : Nat) :
    (∃ u, parseLoop base s 0 false = some (n, u) ∧ (u = true → underscoreLoop false 0x5E s = true)) ↔ Grouped base s n ∧ n ≤ 65535 := by
  constructor
  · rintro ⟨u, h1, h2⟩
    obtain ⟨h3, h4, h5, h6⟩ := (parseLoop_iff base h0 (by omega) s 0 false (by decide) n u).1 h1
    refine ⟨grouped_iff.2 ⟨h3, ?_, h4⟩, h5⟩
    by_cases hu : (0x5F : UInt8) ∈ s
    · exact ((underscoreLoop_iff (.inl h) s h3).2.2 hs).1 (h2 (by rw [h6]; simp [hu]))
    · exact rest_digits h3 hu hs
  · rintro ⟨hg, h5⟩
    obtain ⟨h3, hr, h4⟩ := grouped_iff.1 hg
    exact ⟨_, (parseLoop_iff base h0 (by omega) s 0 false (by decide) n _).2 ⟨h3, h4, h5, rfl⟩,
      fun _ => ((underscoreLoop_iff (.inl h) s h3).2.2 hs).2 hr⟩

/-- `ParseUint` behind a prefix. -/
theorem parse_prefixed {base : Nat} {hex : Bool} (h0 : 0 < base) (h : base ≤ 10 ∨ base ≤ 16 ∧ hex = true) {s : Bytes} (hs : s ≠ []) (n : Nat) :
    (∃ u, parseLoop base s 0 false = some (n, u) ∧ (u = true → underscoreLoop hex 0x30 s = true)) ↔
      (Grouped base s n ∨ ∃ s', s = 0x5F :: s' ∧ Grouped base s' n) ∧ n ≤ 65535 := by
  have h16 : base ≤ 16 := by omega
  constructor
  · rintro ⟨u, h1, h2⟩
    obtain ⟨h3, h4, h5, h6⟩ := (parseLoop_iff base h0 h16 s 0 false (by decide) n u).1 h1
    refine ⟨?_, h5⟩
    have hr : Rest base s false := by
      by_cases hu : (0x5F : UInt8) ∈ s
      · exact (underscoreLoop_iff h s h3).1.1 (h2 (by rw [h6]; simp [hu]))
      · exact rest_weak (rest_digits h3 hu hs)
    rcases (rest_false_iff hs).1 hr with hr' | ⟨s', rfl, hr'⟩
    · exact .inl (grouped_iff.2 ⟨h3, hr', h4⟩)
    · refine .inr ⟨s', rfl, grouped_iff.2 ⟨fun c hc => h3 c (by simp [hc]), hr', ?_⟩⟩
      rw [h4, List.filter_cons_of_neg (by simp)]; rfl
  · rintro ⟨hg, h5⟩
    have : Clean base s ∧ Rest base s false ∧ n = numberOf base (s.filter (· ≠ 0x5F)) := by
      rcases hg with hg | ⟨s', rfl, hg⟩
      · obtain ⟨h3, hr, h4⟩ := grouped_iff.1 hg
        exact ⟨h3, rest_weak hr, h4⟩
      · obtain ⟨h3, hr', h4⟩ := grouped_iff.1 hg
        refine ⟨fun c hc => ?_, rest_underscore.2 hr', by rw [h4, List.filter_cons_of_neg (by simp)]⟩
        rcases List.mem_cons.1 hc with rfl | hc
        · exact .inl rfl
        · exact h3 c hc
    obtain ⟨h3, hr, h4⟩ := this
    exact ⟨_, (parseLoop_iff base h0 h16 s 0 false (by decide) n _).2 ⟨h3, h4, h5, rfl⟩,
      fun _ => (underscoreLoop_iff h s h3).1.2 hr⟩

theorem parseUint16_iff {s : Bytes} (hs : s ≠ []) (n : Nat) :
    parseUint16 s = some n ↔ ∃ u, parseLoop (intBase s).1 (intBase s).2 0 false = some (n, u) ∧ (u = true → underscoreOK s = true) := by
  rw [parseUint16, if_neg hs]
  cases parseLoop (intBase s).1 (intBase s).2 0 false with
  | none => simp
  | some x =>
    obtain ⟨m, u⟩ := x
    dsimp only
    by_cases h : u ∧ ¬ underscoreOK s
    · rw [if_pos h]
      simp only [reduceCtorEq, Option.some.injEq, Prod.mk.injEq, false_iff]
      rintro ⟨u', ⟨_, rfl⟩, h'⟩
      exact h.2 (h' h.1)
    · rw [if_neg h]
      simp only [Option.some.injEq, Prod.mk.injEq]
      constructor
      · rintro rfl
        exact ⟨u, ⟨rfl, rfl⟩, fun hu => Classical.byContradiction fun hn => h ⟨hu, hn⟩⟩
      · rintro ⟨_, ⟨rfl, _⟩, _⟩; rfl

theorem prefixes_table : ∀ n : Fin 256, ((UInt8.ofNat n.1, 2) ∈ prefixes ↔ lower (UInt8.ofNat n.1) = 0x62) ∧
    ((UInt8.ofNat n.1, 8) ∈ prefixes ↔ lower (UInt8.ofNat n.1) = 0x6F) ∧
    ((UInt8.ofNat n.1, 16) ∈ prefixes ↔ lower (UInt8.ofNat n.1) = 0x78) ∧
    (lower (UInt8.ofNat n.1) = 0x62 ∨ lower (UInt8.ofNat n.1) = 0x6F ∨ lower (UInt8.ofNat n.1) = 0x78 →
      UInt8.ofNat n.1 ≠ 0x5F ∧ ∀ d : Fin 8, digitOf (UInt8.ofNat n.1) ≠ some d.1) := by decide +kernel

theorem prefixes_lower (x : UInt8) : ((x, 2) ∈ prefixes ↔ lower x = 0x62) ∧ ((x, 8) ∈ prefixes ↔ lower x = 0x6F) ∧
    ((x, 16) ∈ prefixes ↔ lower x = 0x78) ∧
    (lower x = 0x62 ∨ lower x = 0x6F ∨ lower x = 0x78 → x ≠ 0x5F ∧ ∀ d : Fin 8, digitOf x ≠ some d.1) :=
  forall_byte (P := fun x => ((x, 2) ∈ prefixes ↔ lower x = 0x62) ∧ ((x, 8) ∈ prefixes ↔ lower x = 0x6F) ∧
    ((x, 16) ∈ prefixes ↔ lower x = 0x78) ∧
    (lower x = 0x62 ∨ lower x = 0x6F ∨ lower x = 0x78 → x ≠ 0x5F ∧ ∀ d : Fin 8, digitOf x ≠ some d.1)) prefixes_table x

theorem prefixes_base {x : UInt8} {base : Nat} (h : (x, base) ∈ prefixes) :
    (base = 2 ∧ lower x = 0x62) ∨ (base = 8 ∧ lower x = 0x6F) ∨ (base = 16 ∧ lower x = 0x78) := by
  simp only [prefixes, List.mem_cons, Prod.mk.injEq, List.not_mem_nil, or_false] at h
  rcases h with ⟨rfl, rfl⟩ | ⟨rfl, rfl⟩ | ⟨rfl, rfl⟩ | ⟨rfl, rfl⟩ | ⟨rfl, rfl⟩ | ⟨rfl, rfl⟩ <;> decide

/-- A text that begins like one with a prefix is no octal number. -/
theorem no_octal {x : UInt8} {body : Bytes} (hx : lower x = 0x62 ∨ lower x = 0x6F ∨ lower x = 0x78) : ¬ Clean 8 (0x30 :: x :: body) := by
  intro h
  obtain ⟨h1, h2⟩ := (prefixes_lower x).2.2.2 hx
  rcases h x (by simp) with h | ⟨d, h, hd⟩
  · exact h1 h
  · exact h2 ⟨d, hd⟩ h

theorem grouped_nil {base n : Nat} : ¬ Grouped base [] n := by
  rintro ⟨g, gs, h1, h2, _⟩
  exact (h1 g (by simp)).1 (List.append_eq_nil_iff.1 h2.symm).1

theorem intLit_nil {n : Nat} : ¬ IntLit [] n := by
  intro h
  cases h with
  | decimal _ h => exact grouped_nil h
  | octal h _ => cases h

theorem intLit_decimal {z : UInt8} {cs : Bytes} {n : Nat} (hz : z ≠ 0x30) : IntLit (z :: cs) n ↔ Grouped 10 (z :: cs) n := by
  constructor
  · intro h
    cases h with
    | decimal _ h => exact h
    | octal h _ => exact absurd (Option.some.inj h) hz
    | prefixed => exact absurd rfl hz
    | prefixed_ => exact absurd rfl hz
  · exact .decimal (by simpa using hz)

theorem intLit_octal {cs : Bytes} {n : Nat} (hx : ∀ x body, cs = x :: body → body ≠ [] → ¬ (lower x = 0x62 ∨ lower x = 0x6F ∨ lower x = 0x78)) :
    IntLit (0x30 :: cs) n ↔ Grouped 8 (0x30 :: cs) n := by
  constructor
  · intro h
    cases h with
    | decimal h _ => exact absurd rfl h
    | octal _ h => exact h
    | prefixed hp hg =>
      refine absurd ?_ (hx _ _ rfl (fun e => grouped_nil (e ▸ hg)))
      rcases prefixes_base hp with h | h | h
      · exact .inl h.2
      · exact .inr (.inl h.2)
      · exact .inr (.inr h.2)
    | prefixed_ hp hg =>
      refine absurd ?_ (hx _ _ rfl (by simp))
      rcases prefixes_base hp with h | h | h
      · exact .inl h.2
      · exact .inr (.inl h.2)
      · exact .inr (.inr h.2)
  · exact .octal rfl

theorem intLit_prefixed {x : UInt8} {base : Nat} {body : Bytes} {n : Nat} (hp : (x, base) ∈ prefixes) :
    IntLit (0x30 :: x :: body) n ↔ Grouped base body n ∨ ∃ s', body = 0x5F :: s' ∧ Grouped base s' n := by
  have hx : lower x = 0x62 ∨ lower x = 0x6F ∨ lower x = 0x78 := by
    rcases prefixes_base hp with h | h | h
    · exact .inl h.2
    · exact .inr (.inl h.2)
    · exact .inr (.inr h.2)
  have huniq : ∀ b, (x, b) ∈ prefixes → b = base := by
    intro b hb
    rcases prefixes_base hp with ⟨e, h⟩ | ⟨e, h⟩ | ⟨e, h⟩ <;> rcases prefixes_base hb with ⟨e', h'⟩ | ⟨e', h'⟩ | ⟨e', h'⟩ <;>
      first
        | (rw [e, e']; done)
        | (rw [h] at h'; exact absurd h' (by decide))
  constructor
  · intro h
    cases h with
    | decimal h _ => exact absurd rfl h
    | octal _ h => exact absurd (grouped_iff.1 h).1 (no_octal hx)
    | prefixed hp' hg => rw [← huniq _ hp']; exact .inl hg
    | prefixed_ hp' hg => rw [← huniq _ hp']; exact .inr ⟨_, rfl, hg⟩
  · rintro (h | ⟨s', rfl, h⟩)
    · exact .prefixed hp h
    · exact .prefixed_ hp h

theorem clean_head {base : Nat} {z : UInt8} {cs : Bytes} (h : Clean base (z :: cs)) : z ≠ 0x2D ∧ z ≠ 0x2B := by
  rcases h z (by simp) with rfl | ⟨d, hd, _⟩
  · decide
  · constructor <;> (rintro rfl; exact absurd hd (by rw [digitOf]; simp))

theorem underscoreOK_plain {z : UInt8} {cs : Bytes} (h1 : z ≠ 0x2D) (h2 : z ≠ 0x2B)
    (h3 : z = 0x30 → ∀ x body, cs = x :: body → ¬ (lower x = 0x62 ∨ lower x = 0x6F ∨ lower x = 0x78)) :
    underscoreOK (z :: cs) = underscoreLoop false 0x5E (z :: cs) := by
  unfold underscoreOK
  simp only [if_neg (not_or.2 ⟨h1, h2⟩)]
  cases cs with
  | nil => rfl
  | cons x body =>
    dsimp only
    rw [if_neg]
    rintro ⟨h, hx⟩
    exact h3 h x body rfl hx

theorem underscoreOK_prefixed {x : UInt8} {body : Bytes} (hx : lower x = 0x62 ∨ lower x = 0x6F ∨ lower x = 0x78) :
    underscoreOK (0x30 :: x :: body) = underscoreLoop (lower x = 0x78) 0x30 body := by
  unfold underscoreOK
  simp only [if_neg (show ¬ ((0x30 : UInt8) = 0x2D ∨ (0x30 : UInt8) = 0x2B) by decide)]
  rw [if_pos ⟨trivial, hx⟩]

theorem parseLoop_zero (cs : Bytes) : parseLoop 8 (0x30 :: cs) 0 false = parseLoop 8 cs 0 false := by
  rw [parseLoop, if_neg (by decide)]
  rfl

/-- C86, the numbers: `strconv.ParseUint(s, 0, 16)` accepts exactly the integer literals of Go up to 65535, with their value. -/
theorem C86_number_iff (s : Bytes) (n : Nat) : parseUint16 s = some n ↔ IntLit s n ∧ n ≤ 65535 := by
  cases s with
  | nil =>
    simp only [parseUint16, if_pos, reduceCtorEq, false_iff]
    exact fun h => intLit_nil h.1
  | cons z cs =>
    rw [parseUint16_iff (by simp)]
    by_cases hz : z = 0x30
    · subst hz
      have octal : (∀ x body, cs = x :: body → body ≠ [] → ¬ (lower x = 0x62 ∨ lower x = 0x6F ∨ lower x = 0x78)) →
          intBase (0x30 :: cs) = (8, cs) →
          ((∃ u, parseLoop (intBase (0x30 :: cs)).1 (intBase (0x30 :: cs)).2 0 false = some (n, u) ∧ (u = true → underscoreOK (0x30 :: cs) = true)) ↔
            IntLit (0x30 :: cs) n ∧ n ≤ 65535) := by
        intro hx hb
        rw [hb, intLit_octal hx, ← parse_plain (by decide) (by decide) (by simp) n]
        dsimp only
        rw [← parseLoop_zero]
        have hok : ∀ u, parseLoop 8 (0x30 :: cs) 0 false = some (n, u) →
            underscoreOK (0x30 :: cs) = underscoreLoop false 0x5E (0x30 :: cs) := by
          intro u hu
          have hc : Clean 8 (0x30 :: cs) := ((parseLoop_iff 8 (by decide) (by decide) _ 0 false (by decide) n u).1 hu).1
          refine underscoreOK_plain (by decide) (by decide) fun _ x body e hxx => ?_
          subst e
          exact no_octal hxx hc
        constructor
        · rintro ⟨u, h1, h2⟩; exact ⟨u, h1, fun h => hok u h1 ▸ h2 h⟩
        · rintro ⟨u, h1, h2⟩; exact ⟨u, h1, fun h => hok u h1 ▸ h2 h⟩
      match cs, octal with
      | [], octal => exact octal (by simp) rfl
      | [x], octal => exact octal (by simp) rfl
      | x :: y :: body, octal =>
        have pre : ∀ base, (x, base) ∈ prefixes → intBase (0x30 :: x :: y :: body) = (base, y :: body) →
            0 < base → (base ≤ 10 ∨ base ≤ 16 ∧ decide (lower x = 0x78) = true) →
            ((∃ u, parseLoop (intBase (0x30 :: x :: y :: body)).1 (intBase (0x30 :: x :: y :: body)).2 0 false = some (n, u) ∧
              (u = true → underscoreOK (0x30 :: x :: y :: body) = true)) ↔ IntLit (0x30 :: x :: y :: body) n ∧ n ≤ 65535) := by
          intro base hp hb h0 h16
          rw [hb, intLit_prefixed hp, ← parse_prefixed h0 h16 (by simp) n, underscoreOK_prefixed (by
            rcases prefixes_base hp with h | h | h
            · exact .inl h.2
            · exact .inr (.inl h.2)
            · exact .inr (.inr h.2))]
        by_cases h1 : lower x = 0x62
        · exact pre 2 ((prefixes_lower x).1.2 h1) (by simp [intBase, h1]) (by decide) (.inl (by decide))
        by_cases h2 : lower x = 0x6F
        · exact pre 8 ((prefixes_lower x).2.1.2 h2) (by simp [intBase, h2]) (by decide) (.inl (by decide))
        by_cases h3 : lower x = 0x78
        · exact pre 16 ((prefixes_lower x).2.2.1.2 h3) (by simp [intBase, h3]) (by decide) (.inr ⟨by decide, by simp [h3]⟩)
        · refine octal ?_ (by simp [intBase, h1, h2, h3])
          rintro x' body' e _ (h | h | h) <;> (cases e; contradiction)
    · rw [intLit_decimal hz, show intBase (z :: cs) = (10, z :: cs) from by simp [intBase, hz],
        ← parse_plain (by decide) (by decide) (by simp) n]
      dsimp only
      have hok : ∀ u, parseLoop 10 (z :: cs) 0 false = some (n, u) → underscoreOK (z :: cs) = underscoreLoop false 0x5E (z :: cs) := by
        intro u hu
        have hc : Clean 10 (z :: cs) := ((parseLoop_iff 10 (by decide) (by decide) _ 0 false (by decide) n u).1 hu).1
        exact underscoreOK_plain (clean_head hc).1 (clean_head hc).2 fun h => absurd h hz
      constructor
      · rintro ⟨u, h1, h2⟩; exact ⟨u, h1, fun h => hok u h1 ▸ h2 h⟩
      · rintro ⟨u, h1, h2⟩; exact ⟨u, h1, fun h => hok u h1 ▸ h2 h⟩

/-! ### Tags -/

theorem quoted_plain {value : Bytes} (h : ∀ c ∈ value, c ≠ 0x22 ∧ c ≠ 0x5C) (rest : Bytes) :
    quoted (value ++ 0x22 :: rest) = some (value, rest) := by
  induction value with
  | nil => cases rest <;> simp [quoted]
  | cons c cs ih =>
    have ih := ih fun x hx => h x (by simp [hx])
    have hc := h c (by simp)
    cases hcs : cs ++ 0x22 :: rest with
    | nil => simp at hcs
    | cons y ys =>
      rw [List.cons_append, hcs, quoted, if_neg hc.1, if_neg hc.2, ← hcs, ih]
      rfl

theorem dropWhile_spaces (n : Nat) (s : Bytes) : (List.replicate n 0x20 ++ s).dropWhile (· = (0x20 : UInt8)) = s.dropWhile (· = (0x20 : UInt8)) := by
  induction n with
  | zero => rfl
  | succ n ih => rw [List.replicate_succ, List.cons_append, List.dropWhile_cons_of_pos (by simp), ih]

theorem key_chars {p : TagPair} (h : p.Plain) : ∀ c ∈ p.key, tagKeyChar c = true := by
  intro c hc
  obtain ⟨h1, h2, h3, h4⟩ := h.2.1 c hc
  simp only [tagKeyChar, decide_eq_true_eq]
  exact ⟨h1, h3, h4, h2⟩

theorem takeWhile_key {p : UInt8 → Bool} {key : Bytes} (h : ∀ c ∈ key, p c = true) {x : UInt8} {rest : Bytes} (hx : p x = false) :
    (key ++ x :: rest).takeWhile p = key ∧ (key ++ x :: rest).dropWhile p = x :: rest := by
  induction key with
  | nil => simp [hx]
  | cons c cs ih =>
    have ih := ih fun y hy => h y (by simp [hy])
    have hc := h c (by simp)
    simp [hc, ih]

theorem tagLookup_step (escapes : Bytes → Option Bytes) (key : Bytes) (fuel : Nat) {p : TagPair} (h : p.Plain) (rest : Bytes) :
    tagLookup escapes key (fuel + 1) (p.text ++ rest) = if p.key = key then some p.value else tagLookup escapes key fuel rest := by
  obtain ⟨hk, hks, hv⟩ := h
  have e : p.text ++ rest = List.replicate p.spaces 0x20 ++ (p.key ++ 0x3A :: 0x22 :: (p.value ++ 0x22 :: rest)) := by
    simp [TagPair.text]
  have hd : (p.text ++ rest).dropWhile (· = (0x20 : UInt8)) = p.key ++ 0x3A :: 0x22 :: (p.value ++ 0x22 :: rest) := by
    rw [e, dropWhile_spaces]
    cases hkey : p.key with
    | nil => exact absurd hkey hk
    | cons c cs =>
      have hc := (hks c (by simp [hkey])).1
      rw [List.cons_append, List.dropWhile_cons_of_neg]
      simp only [decide_eq_true_eq]
      rintro rfl
      exact absurd hc (by decide)
  have ht := takeWhile_key (key_chars ⟨hk, hks, hv⟩) (x := 0x3A) (rest := 0x22 :: (p.value ++ 0x22 :: rest)) (by decide)
  rw [tagLookup]
  simp only [hd, ht.1, ht.2, if_neg hk, and_self, if_true, quoted_plain (fun c hc => ⟨(hv c hc).1, (hv c hc).2.1⟩)]
  by_cases hkey : p.key = key
  · rw [if_pos hkey, if_pos hkey.symm, unquote, if_neg, if_pos]
    · exact fun c hc => ⟨(hv c hc).2.1, (hv c hc).2.2.2⟩
    · exact fun hc => (hv _ hc).2.2.1 rfl
  · rw [if_neg hkey, if_neg fun e => hkey e.symm]

theorem tagLookup_eq (escapes : Bytes → Option Bytes) (key : Bytes) {ps : List TagPair} (h : ∀ p ∈ ps, p.Plain) (spaces : Nat) :
    ∀ fuel, ps.length ≤ fuel → tagLookup escapes key fuel (tagText ps spaces) = (ps.find? (·.key = key)).map (·.value) := by
  induction ps with
  | nil =>
    intro fuel _
    cases fuel with
    | zero => rfl
    | succ fuel =>
      have hd : (tagText [] spaces).dropWhile (· = (0x20 : UInt8)) = [] := by
        simp [tagText]
      rw [tagLookup]
      simp [hd]
  | cons p ps ih =>
    intro fuel hf
    cases fuel with
    | zero => simp at hf
    | succ fuel =>
      rw [show tagText (p :: ps) spaces = p.text ++ tagText ps spaces by simp [tagText], tagLookup_step _ _ _ (h p (by simp)),
        List.find?_cons]
      by_cases hk : p.key = key
      · simp [hk]
      · simp only [hk, if_false, decide_false]
        exact ih (fun q hq => h q (by simp [hq])) fuel (by simpa using hf)

/-- C86, the tags: whatever pairs a tag consists of, `Get` gives the value of the first pair with the key, the empty text if there
is none; trailing spaces do not matter, nor how escapes are read. -/
theorem C86_tag_value (escapes : Bytes → Option Bytes) (key : Bytes) (ps : List TagPair) (h : ∀ p ∈ ps, p.Plain) (spaces : Nat) :
    tagGet escapes key (tagText ps spaces) = tagValue key ps := by
  rw [tagGet, tagLookup_eq escapes key h spaces, tagValue]
  have : ∀ qs : List TagPair, qs.length ≤ (tagText qs spaces).length := by
    intro qs
    induction qs with
    | nil => simp
    | cons q qs ih =>
      have : (tagText (q :: qs) spaces).length = q.text.length + (tagText qs spaces).length := by simp [tagText]
      rw [this]
      simp [TagPair.text]; omega
  exact this ps

/-- The second of two pairs is asked for. -/
example (escapes : Bytes → Option Bytes) :
    tagGet escapes (ascii "id") (tagText [⟨0, ascii "json", ascii "x"⟩, ⟨1, ascii "id", ascii "0x1D"⟩] 2) =
      tagValue (ascii "id") [⟨0, ascii "json", ascii "x"⟩, ⟨1, ascii "id", ascii "0x1D"⟩] :=
  C86_tag_value escapes _ _ (by
    intro p hp
    simp only [List.mem_cons, List.not_mem_nil, or_false] at hp
    rcases hp with rfl | rfl <;> exact ⟨by decide +kernel, by decide +kernel, by decide +kernel⟩) 2

/-- C86, the ids: a field is registered under an id exactly if the value of `id` in its tag is an integer literal of Go for it. -/
theorem C86_id_tag (escapes : Bytes → Option Bytes) (ps : List TagPair) (h : ∀ p ∈ ps, p.Plain) (spaces : Nat) (id : UInt16) :
    parseIdTag escapes (tagText ps spaces) = some id ↔ TagID ps id := by
  rw [parseIdTag, C86_tag_value escapes _ ps h, TagID, Option.map_eq_some_iff]
  constructor
  · rintro ⟨n, hn, rfl⟩
    obtain ⟨h1, h2⟩ := (C86_number_iff _ _).1 hn
    rw [UInt16.toNat_ofNat']
    rwa [Nat.mod_eq_of_lt (by omega)]
  · intro h1
    exact ⟨id.toNat, (C86_number_iff _ _).2 ⟨h1, by have := id.toNat_lt; omega⟩, UInt16.ofNat_toNat⟩

/-- The tag `json:"x" id:"0x1D"`. -/
example (escapes : Bytes → Option Bytes) (id : UInt16) :
    parseIdTag escapes (tagText [⟨0, ascii "json", ascii "x"⟩, ⟨1, ascii "id", ascii "0x1D"⟩] 2) = some id ↔
      TagID [⟨0, ascii "json", ascii "x"⟩, ⟨1, ascii "id", ascii "0x1D"⟩] id :=
  C86_id_tag escapes _ (by
    intro p hp
    simp only [List.mem_cons, List.not_mem_nil, or_false] at hp
    rcases hp with rfl | rfl <;> exact ⟨by decide +kernel, by decide +kernel, by decide +kernel⟩) 2 id

theorem storeAll_lookup {T : Type} [DecidableEq T] (r : Registry T) (regs : List (UInt32 × T)) (t : T) :
    (r.storeAll regs).lookupID t = ((regs.reverse.find? (·.2 = t)).map (·.1)).or (r.lookupID t) := by
  induction regs generalizing r with
  | nil => simp [Registry.storeAll]
  | cons p ps ih =>
    rw [Registry.storeAll, List.foldl_cons]
    rw [show ∀ r' : Registry T, ps.foldl (fun r p => r.storeMapping p.1 p.2) r' = r'.storeAll ps from fun _ => rfl, ih]
    rw [List.reverse_cons, List.find?_append]
    rw [Registry.storeMapping, Registry.lookupID, mapGet_mapSet]
    cases List.find? (fun x => decide (x.2 = t)) ps.reverse with
    | some x => rfl
    | none =>
      by_cases h : p.2 = t
      · simp [h]
      · simp [h, Registry.lookupID]

/-- C86, the registration: registering a struct adds, for every field in order, its type under the id of its tag, up to the first
field whose tag gives none; an error is reported exactly if there is such a field. -/
theorem C86_registers {T : Type} [DecidableEq T] (escapes : Bytes → Option Bytes) (r : Registry T) (lingo : UInt8)
    (fields : List (List TagPair × T)) (spaces : Nat) (h : ∀ f ∈ fields, ∀ p ∈ f.1, p.Plain) :
    ∃ regs failed, Registers lingo fields regs failed ∧
      (∀ regs' failed', Registers lingo fields regs' failed' → regs' = regs ∧ failed' = failed) ∧
      let out := r.registerStruct escapes lingo (fields.map fun f => (tagText f.1 spaces, f.2))
      (out.2 = if failed then some Err.parseTag else none) ∧
      (∀ id, (mapGet out.1.idToType id).getD [] = (mapGet r.idToType id).getD [] ++ candidates regs id) ∧
      ∀ t, out.1.lookupID t = ((regs.reverse.find? (·.2 = t)).map (·.1)).or (r.lookupID t) := by
  have key : ∀ (r : Registry T), ∃ regs failed, Registers lingo fields regs failed ∧
      (∀ regs' failed', Registers lingo fields regs' failed' → regs' = regs ∧ failed' = failed) ∧
      r.registerStruct escapes lingo (fields.map fun f => (tagText f.1 spaces, f.2)) =
        (r.storeAll regs, if failed then some Err.parseTag else none) := by
    induction fields with
    | nil =>
      intro r
      refine ⟨[], false, .done, ?_, rfl⟩
      intro _ _ h; cases h; exact ⟨rfl, rfl⟩
    | cons f fs ih =>
      intro r
      obtain ⟨ps, t⟩ := f
      have hid := C86_id_tag escapes ps (h (ps, t) (by simp)) spaces
      cases hp : parseIdTag escapes (tagText ps spaces) with
      | none =>
        have hn : ∀ id, ¬ TagID ps id := fun id hh => by rw [(hid id).2 hh] at hp; cases hp
        refine ⟨[], true, .bad hn, ?_, ?_⟩
        · intro _ _ h
          cases h with
          | bad => exact ⟨rfl, rfl⟩
          | field h' _ => exact absurd h' (hn _)
        · simp [Registry.registerStruct, hp, Registry.registerLingos, Registry.storeAll]
      | some id =>
        obtain ⟨regs, failed, h1, h2, h3⟩ := ih (fun f hf => h f (by simp [hf])) (r.storeMapping (idOf lingo id) t)
        refine ⟨(idOf lingo id, t) :: regs, failed, .field ((hid id).1 hp) h1, ?_, ?_⟩
        · intro _ _ h
          cases h with
          | bad h' => exact absurd ((hid id).1 hp) (h' id)
          | field h' h'' =>
            obtain ⟨rfl, rfl⟩ := h2 _ _ h''
            have := (hid _).2 h'
            rw [hp] at this
            cases this
            exact ⟨rfl, rfl⟩
        · rw [Registry.registerStruct] at h3 ⊢
          rw [List.map_cons, List.map_cons]
          simp only [hp]
          rw [Registry.registerLingos, newLingoCmdID_eq, h3]
          rfl
  obtain ⟨regs, failed, h1, h2, h3⟩ := key r
  refine ⟨regs, failed, h1, h2, ?_⟩
  dsimp only
  rw [h3]
  refine ⟨rfl, fun id => ?_, storeAll_lookup r regs⟩
  rw [storeAll_candidates]
  split
  · rename_i hc; rw [hc]; simp
  · rfl

/-! ### The structs of the program -/

theorem tagLookup_mono (escapes : Bytes → Option Bytes) (key : Bytes) {v : Bytes} : ∀ (fuel : Nat) (tag : Bytes),
    tagLookup (fun _ => none) key fuel tag = some v → tagLookup escapes key fuel tag = some v
  | 0, _, h => h
  | fuel + 1, tag, h => by
    rw [tagLookup] at h ⊢
    by_cases h1 : List.takeWhile tagKeyChar (List.dropWhile (fun x => decide (x = 0x20)) tag) = []
    · rw [if_pos h1] at h; cases h
    · rw [if_neg h1] at h ⊢
      split at h
      · rename_i a b rest e
        by_cases h2 : a = 0x3A ∧ b = 0x22
        · rw [if_pos h2] at h
          simp only [if_pos h2]
          cases hq : quoted rest with
          | none => rw [hq] at h; cases h
          | some x =>
            rw [hq] at h
            dsimp only at h ⊢
            by_cases h3 : key = List.takeWhile tagKeyChar (List.dropWhile (fun x => decide (x = 0x20)) tag)
            · rw [if_pos h3] at h ⊢
              rw [unquote] at h ⊢
              by_cases h4 : (0x0A : UInt8) ∈ x.1
              · rw [if_pos h4] at h; cases h
              · rw [if_neg h4] at h ⊢
                by_cases h5 : ∀ c ∈ x.1, c ≠ 0x5C ∧ c < 0x80
                · rw [if_pos h5] at h ⊢; exact h
                · rw [if_neg h5] at h; cases h
            · rw [if_neg h3] at h ⊢
              exact tagLookup_mono escapes key fuel _ h
        · rw [if_neg h2] at h; cases h
      · cases h

theorem parseIdTag_mono (escapes : Bytes → Option Bytes) {tag : Bytes} {id : UInt16} (h : parseIdTag (fun _ => none) tag = some id) :
    parseIdTag escapes tag = some id := by
  rw [parseIdTag, tagGet] at h ⊢
  cases hl : tagLookup (fun _ => none) (ascii "id") tag.length tag with
  | none =>
    rw [hl] at h
    rw [show parseUint16 (Option.getD none []) = none from rfl] at h
    cases h
  | some v => rw [tagLookup_mono escapes _ _ _ hl, ← hl]; exact h

theorem fields_mono {X : Type} (escapes : Bytes → Option Bytes) (c : X → TypeId) {l : List (String × X)} {all : List X} {cmd : X → UInt16}
    (h : l.map (fun f => (parseIdTag (fun _ => none) (ascii f.1), f.2)) = all.map fun t => (some (cmd t), t)) :
    (l.map fun f => (ascii f.1, c f.2)).map (fun f => (parseIdTag escapes f.1, f.2)) = all.map fun t => (some (cmd t), c t) := by
  induction l generalizing all with
  | nil =>
    cases all with
    | nil => rfl
    | cons => cases h
  | cons f l ih =>
    cases all with
    | nil => cases h
    | cons a all =>
      simp only [List.map_cons, List.cons.injEq, Prod.mk.injEq] at h
      obtain ⟨⟨h1, h2⟩, h3⟩ := h
      simp only [List.map_cons, List.cons.injEq, Prod.mk.injEq]
      exact ⟨⟨parseIdTag_mono escapes h1, by rw [h2]⟩, ih h3⟩

theorem aud_tags : audFields.map (fun f => (parseIdTag (fun _ => none) (ascii f.1), f.2)) = AudT.all.map fun t => (some t.cmdID, t) := by
  decide +kernel
theorem disp_tags : dispFields.map (fun f => (parseIdTag (fun _ => none) (ascii f.1), f.2)) = DispT.all.map fun t => (some t.cmdID, t) := by
  decide +kernel
theorem ext_tags : extFields.map (fun f => (parseIdTag (fun _ => none) (ascii f.1), f.2)) = ExtT.all.map fun t => (some t.cmdID, t) := by
  decide +kernel
theorem gen_tags : genFields.map (fun f => (parseIdTag (fun _ => none) (ascii f.1), f.2)) = GenT.all.map fun t => (some t.cmdID, t) := by
  decide +kernel
theorem sim_tags : simFields.map (fun f => (parseIdTag (fun _ => none) (ascii f.1), f.2)) = SimT.all.map fun t => (some t.cmdID, t) := by
  decide +kernel

/-- C86, the program: the tags written in the five lingo packages are all well-formed and register the table of ids that the other
properties are about. -/
theorem C86_registry (escapes : Bytes → Option Bytes) : registryFromTags escapes = registry := by
  unfold registry
  rw [registryFromTags]
  dsimp only [Registry.registerStruct]
  rw [fields_mono escapes .aud aud_tags, fields_mono escapes .disp disp_tags, fields_mono escapes .ext ext_tags,
    fields_mono escapes .gen gen_tags, fields_mono escapes .sim sim_tags]

/-- C86, no field of the program is left out: none of the registrations, whose errors the program drops, reports one. -/
theorem C86_no_errors (escapes : Bytes → Option Bytes) (r : Registry TypeId) :
    (r.registerStruct escapes 0x0A (audFields.map fun f => (ascii f.1, .aud f.2))).2 = none ∧
    (r.registerStruct escapes 0x03 (dispFields.map fun f => (ascii f.1, .disp f.2))).2 = none ∧
    (r.registerStruct escapes 0x04 (extFields.map fun f => (ascii f.1, .ext f.2))).2 = none ∧
    (r.registerStruct escapes 0x00 (genFields.map fun f => (ascii f.1, .gen f.2))).2 = none ∧
    (r.registerStruct escapes 0x02 (simFields.map fun f => (ascii f.1, .sim f.2))).2 = none := by
  have key : ∀ {Y : Type} (lingo : UInt8) (c : Y → TypeId) (l : List (String × Y)) (all : List Y) (cmd : Y → UInt16),
      l.map (fun f => (parseIdTag (fun _ => none) (ascii f.1), f.2)) = all.map (fun t => (some (cmd t), t)) →
      (r.registerStruct escapes lingo (l.map fun f => (ascii f.1, c f.2))).2 = none := by
    intro Y lingo c l all cmd h
    rw [Registry.registerStruct, fields_mono escapes c h, registerLingos_eq]
    dsimp only
    rw [if_pos]
    intro f hf
    obtain ⟨t, _, rfl⟩ := List.mem_map.1 hf
    rfl
  exact ⟨key _ _ _ _ _ aud_tags, key _ _ _ _ _ disp_tags, key _ _ _ _ _ ext_tags, key _ _ _ _ _ gen_tags, key _ _ _ _ _ sim_tags⟩

/-! ### Examples -/

example : parseUint16 (ascii "0x1F") = some 31 ∧ parseUint16 (ascii "017") = some 15 ∧ parseUint16 (ascii "0b1_01") = some 5 ∧
    parseUint16 (ascii "0x_FF") = some 255 ∧ parseUint16 (ascii "65535") = some 65535 ∧ parseUint16 (ascii "65536") = none ∧
    parseUint16 (ascii "08") = none ∧ parseUint16 (ascii "0x") = none ∧ parseUint16 (ascii "1__0") = none ∧
    parseUint16 (ascii "+1") = none := by decide +kernel

example : IntLit (ascii "0x0A") 10 :=
  .prefixed (x := 0x78) (base := 16) (body := ascii "0A") (by decide)
    ⟨ascii "0A", [], by
      intro x hx
      rw [List.mem_singleton] at hx
      subst hx
      refine ⟨by decide +kernel, fun c hc => ?_⟩
      rw [show ascii "0A" = [0x30, 0x41] by decide +kernel] at hc
      simp only [List.mem_cons, List.not_mem_nil, or_false] at hc
      rcases hc with rfl | rfl
      · exact ⟨0, by decide, by decide⟩
      · exact ⟨10, by decide, by decide⟩, by decide +kernel, by decide +kernel⟩

/-- Two pairs, the second one with the id. -/
example : tagText [⟨0, ascii "json", ascii "x"⟩, ⟨1, ascii "id", ascii "0x1D"⟩] 2 = ascii "json:\"x\" id:\"0x1D\"  " ∧
    (∀ p ∈ [(⟨0, ascii "json", ascii "x"⟩ : TagPair), ⟨1, ascii "id", ascii "0x1D"⟩], p.Plain) ∧
    parseIdTag (fun _ => none) (ascii "json:\"x\" id:\"0x1D\"  ") = some 0x1D := by
  refine ⟨by decide +kernel, ?_, by decide +kernel⟩
  intro p hp
  simp only [List.mem_cons, List.not_mem_nil, or_false] at hp
  rcases hp with rfl | rfl <;> exact ⟨by decide +kernel, by decide +kernel, by decide +kernel⟩

/-- A struct whose second tag is wrong. -/
def badStruct : List (Bytes × Nat) := [(ascii "id:\"0x01\"", 7), (ascii "id: \"0x02\"", 8), (ascii "id:\"0x03\"", 9)]

/-- The second field is not registered, nor is the third. -/
example : (Registry.empty.registerStruct (fun _ => none) 4 badStruct).1.idToType = [(0x00040001, [7])] ∧
    (Registry.empty.registerStruct (fun _ => none) 4 badStruct).1.typeToID = [(7, 0x00040001)] ∧
    (Registry.empty.registerStruct (fun _ => none) 4 badStruct).2 = some Err.parseTag := by
  decide +kernel

end Props
