import Verif.Model.OldLog
import Verif.Spec.OldLog
import Verif.Props.TraceFile

/-! # C121: old logs made into traces -/

namespace Props
open Go Spec Ipod Ipod.Trace Ipod.OldLog

theorem star_none {α : Type} {k : Bytes → Bytes → Option α} {taken s : Bytes} :
    star k taken s = none ↔ ∀ a b, s = a ++ b → k (taken ++ a) b = none := by
  induction s generalizing taken with
  | nil =>
    rw [star]
    constructor
    · intro h a b e
      obtain ⟨rfl, rfl⟩ := List.append_eq_nil_iff.1 e.symm
      simpa using h
    · intro h
      simpa using h [] [] rfl
  | cons c s ih =>
    rw [star]
    constructor
    · intro h a b e
      cases hs : star k (taken ++ [c]) s with
      | some x => rw [hs] at h; cases h
      | none =>
        rw [hs] at h
        rcases a with _ | ⟨x, a⟩
        · rw [List.nil_append] at e
          subst e
          simpa using h
        · rw [List.cons_append, List.cons.injEq] at e
          obtain ⟨rfl, e⟩ := e
          simpa using ih.1 hs a b e
    · intro h
      have : star k (taken ++ [c]) s = none := ih.2 fun a b e => by
        have := h (c :: a) b (by rw [e]; rfl)
        simpa using this
      rw [this]
      simpa using h [] (c :: s) rfl

theorem star_some {α : Type} {k : Bytes → Bytes → Option α} {taken s : Bytes} {x : α} (h : star k taken s = some x) :
    ∃ a b, s = a ++ b ∧ k (taken ++ a) b = some x ∧
      ∀ a' b', s = a' ++ b' → a.length < a'.length → k (taken ++ a') b' = none := by
  induction s generalizing taken with
  | nil =>
    rw [star] at h
    refine ⟨[], [], rfl, by simpa using h, fun a' b' e hl => ?_⟩
    obtain ⟨rfl, rfl⟩ := List.append_eq_nil_iff.1 e.symm
    cases hl
  | cons c s ih =>
    rw [star] at h
    cases hs : star k (taken ++ [c]) s with
    | some y =>
      rw [hs] at h
      cases h
      obtain ⟨a, b, e, h1, h2⟩ := ih hs
      refine ⟨c :: a, b, by rw [e]; rfl, by simpa using h1, fun a' b' e' hl => ?_⟩
      rcases a' with _ | ⟨x, a'⟩
      · cases hl
      · rw [List.cons_append, List.cons.injEq] at e'
        obtain ⟨rfl, e'⟩ := e'
        simpa using h2 a' b' e' (by simpa using hl)
    | none =>
      rw [hs] at h
      refine ⟨[], c :: s, rfl, by simpa using h, fun a' b' e' hl => ?_⟩
      rcases a' with _ | ⟨x, a'⟩
      · cases hl
      · rw [List.cons_append, List.cons.injEq] at e'
        obtain ⟨rfl, e'⟩ := e'
        simpa using star_none.1 hs a' b' e'

theorem lit_some {α : Type} {w : Bytes} {k : Bytes → Option α} {s : Bytes} {x : α} :
    lit w k s = some x ↔ ∃ r, s = w ++ r ∧ k r = some x := by
  unfold lit
  constructor
  · intro h
    split at h
    · rename_i hp
      obtain ⟨r, rfl⟩ := List.isPrefixOf_iff_prefix.1 hp
      exact ⟨r, rfl, by simpa using h⟩
    · cases h
  · rintro ⟨r, rfl, h⟩
    rw [if_pos (List.isPrefixOf_iff_prefix.2 (List.prefix_append _ _))]
    simpa using h

theorem lit_app {α : Type} (w : Bytes) (k : Bytes → Option α) (r : Bytes) : lit w k (w ++ r) = k r := by
  rw [lit, if_pos (List.isPrefixOf_iff_prefix.2 (List.prefix_append _ _)), List.drop_left]

theorem lit_at {α : Type} (c : UInt8) (k : Bytes → Option α) (r : Bytes) : lit [c] k (c :: r) = k r :=
  lit_app [c] k r

/-- The group: up to the last closing bracket. -/
theorem group_some {s g t : Bytes} :
    star (fun group s => lit [0x5D] (fun rest => some (group, rest)) s) [] s = some (g, t) ↔
      s = g ++ 0x5D :: t ∧ (0x5D : UInt8) ∉ t := by
  constructor
  · intro h
    obtain ⟨a, b, e, h1, h2⟩ := star_some h
    obtain ⟨r, rfl, h3⟩ := lit_some.1 h1
    simp only [List.nil_append, Option.some.injEq, Prod.mk.injEq] at h3
    obtain ⟨rfl, rfl⟩ := h3
    clear h1
    refine ⟨e, fun hm => ?_⟩
    obtain ⟨x, y, rfl⟩ := List.append_of_mem hm
    have := h2 (a ++ 0x5D :: x) (0x5D :: y) (by rw [e]; simp) (by simp)
    rw [lit_at] at this
    cases this
  · rintro ⟨e, ht⟩
    cases h : star (fun group s => lit [0x5D] (fun rest => some (group, rest)) s) [] s with
    | none =>
      have := star_none.1 h g (0x5D :: t) e
      rw [lit_at] at this
      cases this
    | some x =>
      obtain ⟨a, b, e', h1, h2⟩ := star_some h
      obtain ⟨r, rfl, h3⟩ := lit_some.1 h1
      simp only [List.nil_append, Option.some.injEq] at h3
      subst h3
      rcases Nat.lt_trichotomy a.length g.length with hl | hl | hl
      · have := h2 g (0x5D :: t) e hl
        rw [lit_at] at this
        cases this
      · rw [e] at e'
        obtain ⟨rfl, h5⟩ := List.append_inj e' hl.symm
        rw [List.singleton_append, List.cons.injEq] at h5
        rw [h5.2]
      · exfalso
        rw [e] at e'
        rcases List.append_eq_append_iff.1 e' with ⟨c, hc, hd⟩ | ⟨c, hc, hd⟩
        · rcases c with _ | ⟨x, c⟩
          · rw [List.append_nil] at hc; rw [hc] at hl; exact Nat.lt_irrefl _ hl
          · rw [List.cons_append, List.cons.injEq] at hd
            exact ht (by rw [hd.2]; simp)
        · rw [hc, List.length_append] at hl
          omega

/-- From the bracket before it. -/
theorem bracket_some {s g t : Bytes} :
    star (fun _ s => lit [0x5B] (fun s =>
      star (fun group s => lit [0x5D] (fun rest => some (group, rest)) s) [] s) s) [] s = some (g, t) ↔
      ∃ b, s = b ++ 0x5B :: (g ++ 0x5D :: t) ∧ (0x5B : UInt8) ∉ g ∧ (0x5D : UInt8) ∉ t := by
  have sound : ∀ {g t : Bytes}, star (fun _ s => lit [0x5B] (fun s =>
      star (fun group s => lit [0x5D] (fun rest => some (group, rest)) s) [] s) s) [] s = some (g, t) →
      ∃ b, s = b ++ 0x5B :: (g ++ 0x5D :: t) ∧ (0x5B : UInt8) ∉ g ∧ (0x5D : UInt8) ∉ t := by
    intro g t h
    obtain ⟨a, b, e, h1, h2⟩ := star_some h
    obtain ⟨r, rfl, h3⟩ := lit_some.1 h1
    obtain ⟨rfl, ht⟩ := group_some.1 h3
    refine ⟨a, e, fun hm => ?_, ht⟩
    obtain ⟨x, y, rfl⟩ := List.append_of_mem hm
    have := h2 (a ++ 0x5B :: x) (0x5B :: (y ++ 0x5D :: t)) (by rw [e]; simp) (by simp)
    rw [lit_at, group_some.2 ⟨rfl, ht⟩] at this
    cases this
  refine ⟨sound, fun ⟨b, e, hg, ht⟩ => ?_⟩
  cases h : star (fun _ s => lit [0x5B] (fun s =>
      star (fun group s => lit [0x5D] (fun rest => some (group, rest)) s) [] s) s) [] s with
  | none =>
    have := star_none.1 h b (0x5B :: (g ++ 0x5D :: t)) e
    rw [lit_at, group_some.2 ⟨rfl, ht⟩] at this
    cases this
  | some x =>
    obtain ⟨g', t'⟩ := x
    obtain ⟨b', e', hg', ht'⟩ := sound h
    have hu : (g, t) = (g', t') := by
      rw [e] at e'
      have e2 : (b ++ 0x5B :: g) ++ 0x5D :: t = (b' ++ 0x5B :: g') ++ 0x5D :: t' := by simpa using e'
      have h1 := (group_some (s := (b ++ 0x5B :: g) ++ 0x5D :: t)).2 ⟨rfl, ht⟩
      rw [e2, group_some.2 ⟨rfl, ht'⟩] at h1
      simp only [Option.some.injEq, Prod.mk.injEq] at h1
      obtain ⟨h1, rfl⟩ := h1
      rcases List.append_eq_append_iff.1 h1 with ⟨c, hc, hd⟩ | ⟨c, hc, hd⟩
      · rcases c with _ | ⟨x, c⟩
        · cases hd; rfl
        · rw [List.cons_append, List.cons.injEq] at hd
          exact absurd (by rw [hd.2]; simp) hg'
      · rcases c with _ | ⟨x, c⟩
        · cases hd; rfl
        · rw [List.cons_append, List.cons.injEq] at hd
          exact absurd (by rw [hd.2]; simp) hg
    rw [hu]

/-- What is between the brackets is determined. -/
theorem bracketed_unique {word line g t g' t' : Bytes} (h : Bracketed word line g t) (h' : Bracketed word line g' t') :
    g = g' ∧ t = t' := by
  obtain ⟨a, b, e, hg, ht⟩ := h
  obtain ⟨a', b', e', hg', ht'⟩ := h'
  have h1 := bracket_some.2 ⟨a ++ word ++ b, e, hg, ht⟩
  rw [bracket_some.2 ⟨a' ++ word ++ b', e', hg', ht'⟩] at h1
  simp only [Option.some.injEq, Prod.mk.injEq] at h1
  exact ⟨h1.1.symm, h1.2.symm⟩

theorem matchHere_some {word s g t : Bytes} : matchHere word s = some (g, t) ↔ Bracketed word s g t := by
  have sound : ∀ {g t : Bytes}, matchHere word s = some (g, t) → Bracketed word s g t := by
    intro g t h
    obtain ⟨a, b, e, h1, _⟩ := star_some h
    obtain ⟨r, rfl, h3⟩ := lit_some.1 h1
    obtain ⟨b, rfl, hg, ht⟩ := bracket_some.1 h3
    exact ⟨a, b, by rw [e]; simp, hg, ht⟩
  refine ⟨sound, fun hb => ?_⟩
  cases h : matchHere word s with
  | none =>
    obtain ⟨a, b, e, hg, ht⟩ := hb
    have := star_none.1 h a (word ++ (b ++ 0x5B :: (g ++ 0x5D :: t))) (by rw [e]; simp)
    rw [lit_app, bracket_some.2 ⟨b, rfl, hg, ht⟩] at this
    cases this
  | some x =>
    obtain ⟨g', t'⟩ := x
    obtain ⟨rfl, rfl⟩ := bracketed_unique hb (sound h)
    rfl

theorem substFrom_none {word : Bytes} {mark : UInt8} (fuel : Nat) {s : Bytes} (h : ∀ g t, ¬ Bracketed word s g t) :
    substFrom word mark fuel s = s := by
  induction fuel generalizing s with
  | zero => rfl
  | succ fuel ih =>
    unfold substFrom
    cases hm : matchHere word s with
    | some x => exact absurd (matchHere_some.1 hm) (h _ _)
    | none =>
      cases s with
      | nil => rfl
      | cons c s =>
        simp only
        rw [ih]
        rintro g t ⟨a, b, e, hg, ht⟩
        exact h g t ⟨c :: a, b, by rw [e]; rfl, hg, ht⟩

theorem subst_none {word : Bytes} {mark : UInt8} {s : Bytes} (h : ∀ g t, ¬ Bracketed word s g t) : subst word mark s = s :=
  substFrom_none _ h

theorem subst_some {word : Bytes} {mark : UInt8} {s g t : Bytes} (h : Bracketed word s g t) :
    subst word mark s = mark :: (g ++ t) := by
  unfold subst substFrom
  rw [matchHere_some.2 h]
  simp only
  rw [substFrom_none]
  rintro g' t' ⟨a, b, e, _, _⟩
  obtain ⟨_, _, _, _, ht⟩ := h
  exact ht (by rw [e]; simp)

/-- C121, a line: which of the two words counts, what becomes of the line. -/
theorem C121_line (line : Bytes) :
    (∀ g t, Bracketed wordInput line g t → convertLine line = 0x3C :: (g ++ t)) ∧
    (∀ g t, (∀ g t, ¬ Bracketed wordInput line g t) → Bracketed wordOutput line g t → convertLine line = 0x3E :: (g ++ t)) ∧
    ((∀ g t, ¬ Bracketed wordInput line g t) → (∀ g t, ¬ Bracketed wordOutput line g t) → convertLine line = line) := by
  refine ⟨fun g t h => ?_, fun g t h h' => ?_, fun h h' => ?_⟩
  · rw [convertLine, subst_some h, subst_none]
    obtain ⟨_, _, _, hg, ht⟩ := h
    rintro g' t' ⟨a, b, e, _, _⟩
    have e : (0x3C :: g) ++ t = (a ++ wordOutput ++ b) ++ 0x5B :: (g' ++ 0x5D :: t') := e
    rcases List.append_eq_append_iff.1 e with ⟨c, _, hc⟩ | ⟨c, hc, hd⟩
    · exact ht (by rw [hc]; simp)
    · rcases c with _ | ⟨x, c⟩
      · exact ht (by rw [List.nil_append] at hd; rw [← hd]; simp)
      · rw [List.cons_append, List.cons.injEq] at hd
        have hm : (0x5B : UInt8) ∈ 0x3C :: g := by rw [hc, hd.1]; simp
        rcases List.mem_cons.1 hm with hm | hm
        · cases hm
        · exact hg hm
  · rw [convertLine, subst_none h, subst_some h']
  · rw [convertLine, subst_none h, subst_none h']

/-! ### files -/

theorem occurs_iff {word s : Bytes} : occurs word s = true ↔ word <:+: s := by
  induction s with
  | nil =>
    rw [occurs, List.isPrefixOf_iff_prefix]
    exact ⟨List.IsPrefix.isInfix, fun h => by rw [List.infix_nil.1 h]; exact List.prefix_refl _⟩
  | cons c s ih => rw [occurs, Bool.or_eq_true, List.isPrefixOf_iff_prefix, ih, List.infix_cons_iff]

theorem splitLines_lines (text : Bytes) : Lines text (splitLines text) := by
  induction text with
  | nil => exact .none
  | cons c s ih =>
    rw [splitLines]
    by_cases hc : c = 0x0A
    · subst hc
      rw [if_pos rfl]
      exact .line (l := []) (by simp) ih
    · rw [if_neg hc]
      have hc' : (0x0A : UInt8) ≠ c := fun h => hc h.symm
      generalize splitLines s = ls at ih
      cases ih with
      | none => exact .last (by simp) (by simpa using hc')
      | last h1 h2 => exact .last (by simp) (by simp [hc', h2])
      | line h1 h2 => exact .line (l := c :: _) (by simp [hc', h1]) h2

theorem bracketed_parts {word line g t : Bytes} (h : Bracketed word line g t) :
    (∀ c ∈ g ++ t, c ∈ line) ∧ (g ++ t).length + word.length + 2 ≤ line.length ∧ word <:+: line := by
  obtain ⟨a, b, e, _, _⟩ := h
  refine ⟨fun c hc => ?_, ?_, a, b ++ 0x5B :: (g ++ 0x5D :: t), by rw [e]; simp⟩
  · rw [e]
    rcases List.mem_append.1 hc with hc | hc <;> simp [hc]
  · rw [e]
    simp only [List.length_append, List.length_cons]
    omega

theorem subst_parts {word : Bytes} {mark : UInt8} (line : Bytes) :
    (∀ c ∈ subst word mark line, c = mark ∨ c ∈ line) ∧ (subst word mark line).length ≤ line.length := by
  by_cases h : ∃ g t, Bracketed word line g t
  · obtain ⟨g, t, h⟩ := h
    obtain ⟨h1, h2, _⟩ := bracketed_parts h
    rw [subst_some h]
    refine ⟨fun c hc => ?_, by rw [List.length_cons]; omega⟩
    rcases List.mem_cons.1 hc with rfl | hc
    · exact .inl rfl
    · exact .inr (h1 c hc)
  · rw [subst_none fun g t hb => h ⟨g, t, hb⟩]
    exact ⟨fun c hc => .inr hc, Nat.le_refl _⟩

theorem convertLine_parts (line : Bytes) :
    ((0x0A : UInt8) ∉ line → (0x0A : UInt8) ∉ convertLine line) ∧ (convertLine line).length ≤ line.length := by
  have h1 := subst_parts (word := wordInput) (mark := 0x3C) line
  have h2 := subst_parts (word := wordOutput) (mark := 0x3E) (subst wordInput 0x3C line)
  refine ⟨fun hl hm => ?_, Nat.le_trans h2.2 h1.2⟩
  rcases h2.1 _ hm with h | h
  · cases h
  · rcases h1.1 _ h with h | h
    · cases h
    · exact hl h

theorem lines_no_newline {text : Bytes} {ls : List Bytes} (h : Lines text ls) : ∀ l ∈ ls, (0x0A : UInt8) ∉ l := by
  induction h with
  | none => simp
  | last _ h => intro l hl; rw [List.mem_singleton.1 hl]; exact h
  | line h _ ih =>
    intro l hl
    rcases List.mem_cons.1 hl with rfl | hl
    · exact h
    · exact ih l hl

theorem lines_ended (ls : List Bytes) (h : ∀ l ∈ ls, (0x0A : UInt8) ∉ l) : Lines (ls.flatMap fun l => l ++ [0x0A]) ls := by
  induction ls with
  | nil => exact .none
  | cons l ls ih =>
    rw [List.flatMap_cons, List.append_assoc]
    exact .line (h l (.head _)) (ih fun l hl => h l (.tail _ hl))

theorem convert_lines {text : Bytes} {ls : List Bytes} (h : Lines text ls) :
    Lines (convert text) ((ls.filter kept).map convertLine) := by
  obtain ⟨ls', h1, h2⟩ := C89_lines text
  obtain rfl : splitLines text = ls := (h2 _ (splitLines_lines text)).trans (h2 _ h).symm
  have := lines_ended (((splitLines text).filter kept).map convertLine) fun l hl => by
    obtain ⟨l', hl', rfl⟩ := List.mem_map.1 hl
    exact (convertLine_parts l').1 (lines_no_newline h l' (List.mem_filter.1 hl').1)
  rw [List.flatMap_map] at this
  exact this

theorem hexText_chars {s data : Bytes} (h : HexText s data) : ∀ c ∈ s, ∃ v, IsHex c v := by
  induction h with
  | nil => simp
  | cons h1 h2 _ ih =>
    intro c hc
    rcases List.mem_cons.1 hc with rfl | hc
    · exact ⟨_, h1⟩
    · rcases List.mem_cons.1 hc with rfl | hc
      · exact ⟨_, h2⟩
      · exact ih c hc

/-- The line an entry becomes. -/
theorem entry_converted {lead l : Bytes} {d : Trace.Dir} {data : Bytes} (h : OldEntry lead l d data) :
    ∃ sign c body t v, signOf d = some sign ∧ convertLine l = sign :: (lead ++ c :: (body ++ t)) ∧ IsHex c v ∧
      HexText ((c :: body).filter (· ≠ 0x20)) data ∧ (∀ x ∈ (t.filter (· ≠ 0x20)).head?, ∀ v, ¬ IsHex x v) ∧ kept l = true := by
  obtain ⟨c, body, t, v, h1, h2, h3, h4⟩ := h
  rcases h1 with ⟨rfl, h1⟩ | ⟨rfl, h0, h1⟩
  · refine ⟨0x3C, c, body, t, v, rfl, ?_, h2, h3, h4, ?_⟩
    · rw [(C121_line l).1 _ _ h1]; simp
    · rw [kept, Bool.or_eq_true, occurs_iff]
      exact .inl (bracketed_parts h1).2.2
  · refine ⟨0x3E, c, body, t, v, rfl, ?_, h2, h3, h4, ?_⟩
    · rw [(C121_line l).2.1 _ _ h0 h1]; simp
    · rw [kept, Bool.or_eq_true, occurs_iff, occurs_iff]
      exact .inr (bracketed_parts h1).2.2

/-- The text of a line that does not end with a carriage return before `t`. -/
theorem text_after {a t u : Bytes} (h : TextOf (a ++ t) u) (ha : ∀ x, a ≠ x ++ [0x0D]) : ∃ t', u = a ++ t' ∧ (t' = t ∨ t = t' ++ [0x0D]) := by
  rcases h with h | ⟨h, _⟩
  · rcases List.append_eq_append_iff.1 h with ⟨c, hc, hd⟩ | ⟨c, hc, hd⟩
    · exact ⟨c, hc, .inr hd⟩
    · rcases c with _ | ⟨x, c⟩
      · rw [List.append_nil] at hc
        exact ⟨[], by rw [hc]; simp, .inr (by simpa using hd.symm)⟩
      · have e : c = [] ∧ t = [] := by
          have := congrArg List.length hd
          simp only [List.length_append, List.length_cons, List.length_nil] at this
          exact ⟨List.length_eq_zero_iff.1 (by omega), List.length_eq_zero_iff.1 (by omega)⟩
        obtain ⟨rfl, rfl⟩ := e
        rw [List.append_nil, List.cons.injEq] at hd
        obtain ⟨rfl, _⟩ := hd
        exact absurd hc (ha _)
  · exact ⟨t, h.symm, .inl rfl⟩

/-- What follows still does not go on with a digit, without a carriage return at the end. -/
theorem tail_cr {t t' : Bytes} (h : ∀ x ∈ (t.filter (· ≠ 0x20)).head?, ∀ v, ¬ IsHex x v) (ht : t' = t ∨ t = t' ++ [0x0D]) :
    ∀ x ∈ (t'.filter (· ≠ 0x20)).head?, ∀ v, ¬ IsHex x v := by
  rcases ht with rfl | rfl
  · exact h
  · intro x hx
    refine h x ?_
    rw [List.filter_append, List.head?_append]
    rw [Option.mem_def] at hx ⊢
    rw [hx]; rfl

theorem ends_in_hex {c : UInt8} {body data : Bytes} (h : HexText ((c :: body).filter (· ≠ 0x20)) data) :
    ∀ x ∈ c :: body, x = 0x20 ∨ ∃ v, IsHex x v := by
  intro x hx
  by_cases h0 : x = 0x20
  · exact .inl h0
  · exact .inr (hexText_chars h x (List.mem_filter.2 ⟨hx, by simpa using h0⟩))

theorem not_cr {s pre : Bytes} (hp : ∀ x ∈ pre, x ≠ 0x0D) (h : ∀ x ∈ s, x = 0x20 ∨ ∃ v, IsHex x v) : ∀ y, pre ++ s ≠ y ++ [0x0D] := by
  intro y e
  have hm : (0x0D : UInt8) ∈ pre ++ s := by rw [e]; simp
  rcases List.mem_append.1 hm with hm | hm
  · exact hp _ hm rfl
  · rcases h _ hm with h | ⟨v, hv⟩
    · cases h
    · exact (hex_not_special hv).2.2 rfl

theorem hexText_even {s data : Bytes} (h : HexText s data) : s.length = 2 * data.length := by
  induction h with
  | nil => rfl
  | cons _ _ _ ih => simp only [List.length_cons, ih]; omega

theorem sign_not_cr {d : Trace.Dir} {sign : UInt8} (h : signOf d = some sign) : sign ≠ 0x0D := by
  rcases signOf_some h with ⟨_, rfl⟩ | ⟨_, rfl⟩ <;> decide

/-- An entry with a space after the opening bracket becomes a line that is read as the frame. -/
theorem entry_told {l : Bytes} {d : Trace.Dir} {data : Bytes} (h : OldEntry [0x20] l d data) :
    ∃ u, TextOf (convertLine l) u ∧ LooseLine u d data := by
  obtain ⟨sign, c, body, t, v, h1, h2, h3, h4, h5, _⟩ := entry_converted h
  obtain ⟨u, hu⟩ : ∃ u, TextOf (convertLine l) u := ⟨_, textOf_dropCR _⟩
  refine ⟨u, hu, ?_⟩
  have e : convertLine l = (sign :: 0x20 :: (c :: body)) ++ t := by rw [h2]; simp
  rw [e] at hu
  obtain ⟨t', rfl, ht⟩ := text_after hu (not_cr (pre := [sign, 0x20]) (by
    intro x hx
    simp only [List.mem_cons, List.not_mem_nil, or_false] at hx
    rcases hx with rfl | rfl
    · exact sign_not_cr h1
    · decide) (ends_in_hex h4))
  have hd : data ≠ [] := by
    rintro rfl
    have := hexText_even h4
    rw [List.filter_cons_of_pos (by simpa using (hex_not_special h3).1)] at this
    simp at this
  refine ⟨sign, 0x20, (c :: body) ++ t', [], (c :: body).filter (· ≠ 0x20), t'.filter (· ≠ 0x20), rfl, ?_, h1, ?_, by simp, h4, hd,
    tail_cr h5 ht⟩
  · have h6 := hexText_even h4
    have h7 := List.length_filter_le (· ≠ 0x20) (c :: body)
    have h8 := List.length_pos_iff.2 hd
    rw [List.length_append]
    omega
  · rw [List.filter_append]; rfl

theorem looseLine_tail {sign c : UInt8} {rest : Bytes} {d : Trace.Dir} {data : Bytes} (h : LooseLine (sign :: c :: rest) d data) {s t : Bytes}
    (e : rest.filter (· ≠ 0x20) = s ++ t) (hs : ∀ x ∈ s, ∃ v, IsHex x v) (ht : ∀ x ∈ t.head?, ∀ v, ¬ IsHex x v) (h0 : s ≠ []) :
    s.length = 2 * data.length := by
  obtain ⟨sign', c', rest', ws, digits, tail, e1, _, _, e2, h3, h4, h5, h6⟩ := h
  simp only [List.cons.injEq] at e1
  obtain ⟨rfl, rfl, rfl⟩ := e1
  rw [e] at e2
  have hws : ws = [] := by
    rcases ws with _ | ⟨w, ws⟩
    · rfl
    · exfalso
      obtain ⟨a, w', rfl, _⟩ := whiteSpaces_head w (h3 _ (.head _))
      rcases s with _ | ⟨x, s⟩
      · exact h0 rfl
      · simp only [List.flatten_cons, List.cons_append, List.cons.injEq] at e2
        obtain ⟨v, hv⟩ := hs x (.head _)
        have := spaceLen_digit x ⟨v, hv⟩ w'
        have h8 := spaceLen_white (h3 _ (.head _)) []
        rw [List.append_nil] at h8
        rw [e2.1, h8] at this
        cases this
  subst hws
  rw [List.flatten_nil, List.nil_append] at e2
  rw [← hexText_even h4]
  rcases List.append_eq_append_iff.1 e2 with ⟨x, hx, hy⟩ | ⟨x, hx, hy⟩
  · rcases x with _ | ⟨y, x⟩
    · rw [List.append_nil] at hx; rw [hx]
    · rw [hy] at ht
      obtain ⟨v, hv⟩ := hexText_chars h4 y (by rw [hx]; simp)
      exact absurd hv (ht y (by simp) v)
  · rcases x with _ | ⟨y, x⟩
    · rw [List.append_nil] at hx; rw [hx]
    · rw [hy] at h6
      obtain ⟨v, hv⟩ := hs y (by rw [hx]; simp)
      exact absurd hv (h6 y (by simp) v)

/-- An entry with a digit after the opening bracket becomes a line that is not accepted. -/
theorem entry_bad {l : Bytes} {d : Trace.Dir} {data : Bytes} (h : OldEntry [] l d data) : BadLine (convertLine l) := by
  obtain ⟨sign, c, body, t, v, h1, h2, h3, h4, h5, _⟩ := entry_converted h
  obtain ⟨u, hu⟩ : ∃ u, TextOf (convertLine l) u := ⟨_, textOf_dropCR _⟩
  have e : convertLine l = (sign :: (c :: body)) ++ t := by rw [h2]; simp
  refine ⟨u, hu, ?_⟩
  rw [e] at hu
  obtain ⟨t', rfl, ht⟩ := text_after hu (not_cr (pre := [sign]) (by
    intro x hx
    rw [List.mem_singleton.1 hx]
    exact sign_not_cr h1) (ends_in_hex h4))
  refine ⟨by simp, fun d' data' hl => ?_⟩
  have heven := hexText_even h4
  rw [List.filter_cons_of_pos (by simpa using (hex_not_special h3).1), List.length_cons] at heven
  have := looseLine_tail (rest := body ++ t') hl (s := body.filter (· ≠ 0x20)) (t := t'.filter (· ≠ 0x20))
    (by rw [List.filter_append]) (fun x hx => hexText_chars h4 x (by
      rw [List.filter_cons_of_pos (by simpa using (hex_not_special h3).1)]; exact .tail _ hx))
    (tail_cr h5 ht) (by intro h0; rw [h0] at heven; simp only [List.length_nil] at heven; omega)
  omega

/-- C121, in part: if in the log there is a space after the opening brackets, the converted log is read as the frames it tells of. -/
theorem C121_converted_partial {text : Bytes} {ls : List Bytes} {ms : List Msg} (hl : Lines text ls)
    (hlen : ∀ l ∈ ls, l.length < 65536) (h : OldLog [0x20] 0 ls ms) : loadTrace (newReader (convert text) none) = .ok ms := by
  refine (C89_load_iff _ _ _).2 ⟨_, convert_lines hl, ?_, ?_, .inl rfl⟩
  · intro l hl'
    obtain ⟨l', h1, rfl⟩ := List.mem_map.1 hl'
    exact Nat.lt_of_le_of_lt (convertLine_parts l').2 (hlen l' (List.mem_filter.1 h1).1)
  · clear hl hlen
    generalize 0 = i at h
    induction h with
    | nil => exact .nil
    | @other i l ls ms h1 h2 _ ih =>
      have hk : kept l = false := by
        rw [kept, Bool.or_eq_false_iff, ← Bool.not_eq_true, ← Bool.not_eq_true, occurs_iff, occurs_iff]
        exact ⟨h1, h2⟩
      rw [List.filter_cons_of_neg (by rw [hk]; decide)]
      exact ih
    | @entry i l ls ms d data he _ ih =>
      obtain ⟨_, _, _, _, _, _, _, _, _, _, hk⟩ := entry_converted he
      obtain ⟨u, h1, h2⟩ := entry_told he
      rw [List.filter_cons_of_pos hk, List.map_cons, List.map_cons]
      exact .msg h1 h2 ih

/-- C121, against: if in one of the lines that tell of a frame the first digit follows the opening bracket at once, the converted log is
refused, whatever the frame and the other lines. -/
theorem C121_fails {text : Bytes} {ls : List Bytes} (hl : Lines text ls) {l : Bytes} (hm : l ∈ ls) {d : Trace.Dir} {data : Bytes}
    (h : OldEntry [] l d data) (ending : Option Err) : ∃ e, loadTrace (newReader (convert text) ending) = .error e := by
  obtain ⟨_, _, _, _, _, _, _, _, _, _, hk⟩ := entry_converted h
  exact (C89_refused_iff _ ending (convert_lines hl)).2 (.inl ⟨convertLine l, List.mem_map.2 ⟨l, List.mem_filter.2 ⟨hm, hk⟩, rfl⟩,
    .inr (entry_bad h)⟩)

/-- `10:00 Input: [ 55 02]` -/
def oldLine : Bytes := [0x31, 0x30, 0x3A, 0x30, 0x30, 0x20] ++ wordInput ++ [0x3A, 0x20, 0x5B, 0x20, 0x35, 0x35, 0x20, 0x30, 0x32, 0x5D]

/-- `Output: len=1 [ 0f]x` -/
def oldAnswer : Bytes := wordOutput ++ [0x3A, 0x20, 0x6C, 0x65, 0x6E, 0x3D, 0x31, 0x20, 0x5B, 0x20, 0x30, 0x66, 0x5D, 0x78]

/-- `Input: [55 02]` -/
def oldTight : Bytes := wordInput ++ [0x3A, 0x20, 0x5B, 0x35, 0x35, 0x20, 0x30, 0x32, 0x5D]

theorem oldLine_entry : OldEntry [0x20] oldLine 0 [0x55, 0x02] :=
  ⟨0x35, [0x35, 0x20, 0x30, 0x32], [], 5, .inl ⟨rfl, [0x31, 0x30, 0x3A, 0x30, 0x30, 0x20], [0x3A, 0x20], by decide, by decide, by decide⟩,
    .inl ⟨by decide, by decide, by decide⟩,
    .cons (.inl ⟨by decide, by decide, rfl⟩) (.inl ⟨by decide, by decide, rfl⟩) (.cons (.inl ⟨by decide, by decide, rfl⟩)
      (.inl ⟨by decide, by decide, rfl⟩) .nil), by simp⟩

theorem oldTight_entry : OldEntry [] oldTight 0 [0x55, 0x02] :=
  ⟨0x35, [0x35, 0x20, 0x30, 0x32], [], 5, .inl ⟨rfl, [], [0x3A, 0x20], by decide, by decide, by decide⟩,
    .inl ⟨by decide, by decide, by decide⟩,
    .cons (.inl ⟨by decide, by decide, rfl⟩) (.inl ⟨by decide, by decide, rfl⟩) (.cons (.inl ⟨by decide, by decide, rfl⟩)
      (.inl ⟨by decide, by decide, rfl⟩) .nil), by simp⟩

theorem oldAnswer_entry : OldEntry [0x20] oldAnswer 1 [0x0F] := by
  refine ⟨0x30, [0x66], [0x78], 0, .inr ⟨rfl, fun g t h => ?_, [], [0x3A, 0x20, 0x6C, 0x65, 0x6E, 0x3D, 0x31, 0x20], by decide, by decide,
    by decide⟩, .inl ⟨by decide, by decide, by decide⟩, .cons (.inl ⟨by decide, by decide, rfl⟩)
    (.inr (.inr ⟨by decide, by decide, rfl⟩)) .nil, ?_⟩
  · have := occurs_iff.2 (bracketed_parts h).2.2
    revert this
    decide
  · intro x hx
    obtain rfl : 0x78 = x := by simpa using hx
    exact hexDigit_none.1 (by decide)

/-- Hypotheses of `C121_converted_partial`: a frame read, a line about something else, a frame written. -/
example : loadTrace (newReader (convert (oldLine ++ 0x0A :: ([0x68, 0x69] ++ 0x0A :: oldAnswer))) none) =
    .ok [⟨0, 0, [0x55, 0x02]⟩, ⟨1, 1, [0x0F]⟩] :=
  C121_converted_partial (ls := [oldLine, [0x68, 0x69], oldAnswer]) (.line (by decide) (.line (by decide) (.last (by decide) (by decide))))
    (by decide) (.entry oldLine_entry (.other (by rw [← occurs_iff]; decide) (by rw [← occurs_iff]; decide) (.entry oldAnswer_entry .nil)))

example : convert (oldLine ++ 0x0A :: ([0x68, 0x69] ++ 0x0A :: oldAnswer)) =
    [0x3C, 0x20, 0x35, 0x35, 0x20, 0x30, 0x32, 0x0A, 0x3E, 0x20, 0x30, 0x66, 0x78, 0x0A] := by decide +kernel

/-- Hypotheses of `C121_fails`. -/
example : ∃ e, loadTrace (newReader (convert oldTight) none) = .error e :=
  C121_fails (ls := [oldTight]) (.last (by decide) (by decide)) (.head _) oldTight_entry none

/-- Hypotheses of `C121_line`: a word in the line that is not one of a frame, two pairs of brackets. -/
example : convertLine (wordInput ++ [0x5B, 0x61, 0x5D, 0x5B, 0x62, 0x5D, 0x63]) = [0x3C, 0x62, 0x63] :=
  (C121_line _).1 [0x62] [0x63] ⟨[], [0x5B, 0x61, 0x5D], by decide, by decide, by decide⟩

end Props
