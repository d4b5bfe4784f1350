import Verif.Spec.ViewAll
import Verif.Props.View

/-! # Property C58: exactly when the viewer shows everything -/

namespace Props
open Go Spec Ipod Ipod.Hid Ipod.Trace

theorem messages_cons (c : List Bytes × Except Err Bytes) (cs : List (List Bytes × Except Err Bytes)) :
    messages (c :: cs) = c.1.length + messages cs := by simp [messages]

theorem cut_frames {defs : List ReportDef} {bs tail : List Bytes} {cs : List (List Bytes × Except Err Bytes)}
    (h : Cut defs bs cs tail) : Frames defs bs (cs.map (·.2)) tail := by
  induction h with
  | tail hu => exact .tail hu
  | cons h1 _ ih => exact .cons h1 ih

/-- Every cutting into frames is one into their messages. -/
theorem frames_cut {defs : List ReportDef} {bs tail : List Bytes} {rs : List (Except Err Bytes)}
    (h : Frames defs bs rs tail) : ∃ cs, Cut defs bs cs tail ∧ rs = cs.map (·.2) := by
  induction h with
  | tail hu => exact ⟨[], .tail hu, rfl⟩
  | cons h1 _ ih =>
    obtain ⟨cs, h2, rfl⟩ := ih
    exact ⟨_, .cons h1 h2, rfl⟩

theorem cut_step {defs : List ReportDef} {used rest tail : List Bytes} {r : Except Err Bytes}
    {cs : List (List Bytes × Except Err Bytes)} (h : OneCall defs used r) (hf : Cut defs (used ++ rest) cs tail) :
    ∃ cs', cs = (used, r) :: cs' ∧ Cut defs rest cs' tail := by
  generalize e : used ++ rest = bs at hf
  cases hf with
  | tail hu => exact absurd (e ▸ hu) (oneCall_not_unfinished h)
  | @cons used' rest' r' cs' _ h1 h2 =>
    obtain ⟨rfl, rfl, rfl⟩ := oneCall_unique h h1 e
    exact ⟨_, rfl, h2⟩

theorem cut_unfinished {defs : List ReportDef} {bs tail : List Bytes} {cs : List (List Bytes × Except Err Bytes)}
    (hu : Unfinished defs bs) (hf : Cut defs bs cs tail) : cs = [] ∧ tail = bs := by
  cases hf with
  | tail => exact ⟨rfl, rfl⟩
  | cons h1 h2 => exact absurd hu (oneCall_not_unfinished h1)

theorem ofDir_cons_length (d : Trace.Dir) (m : Msg) (ms : List Msg) :
    (ofDir d (m :: ms)).length = (if m.dir = d then 1 else 0) + (ofDir d ms).length := by
  by_cases h : m.dir = d
  · simp [ofDir, h, Nat.add_comm]
  · simp [ofDir, h]

/-- A message that is not taken: what was before it, before and after the taking. -/
theorem taken_split {d : Trace.Dir} {bs : List Bytes} {ms ms' : List Msg} (h : Taken d bs ms ms') {a : List Msg} {x : Msg}
    {b : List Msg} (e : ms = a ++ x :: b) (hx : x.dir = d → bs.length ≤ (ofDir d a).length) :
    ∃ a' b', ms' = a' ++ x :: b' ∧ (ofDir d a').length = (ofDir d a).length - bs.length ∧
      ∀ d', d' ≠ d → (ofDir d' a').length = (ofDir d' a).length := by
  induction h generalizing a with
  | nil => exact ⟨a, b, e, rfl, fun _ _ => rfl⟩
  | @take m bs ms ms' hd _ ih =>
    cases a with
    | nil =>
      cases e
      have := hx hd
      simp [ofDir] at this
    | cons y a =>
      cases e
      obtain ⟨a', b', h1, h2, h3⟩ := ih rfl (fun hh => by
        have := hx hh
        rw [ofDir_cons_length, if_pos hd, List.length_cons] at this
        omega)
      refine ⟨a', b', h1, ?_, fun d' hd' => ?_⟩
      · rw [h2, ofDir_cons_length, if_pos hd, List.length_cons]; omega
      · rw [h3 d' hd', ofDir_cons_length, if_neg (by rw [hd]; exact hd'.symm)]; omega
  | @skip m c bs ms ms' hd _ ih =>
    cases a with
    | nil =>
      cases e
      exact ⟨[], ms', rfl, by simp [ofDir], fun _ _ => rfl⟩
    | cons y a =>
      cases e
      obtain ⟨a', b', h1, h2, h3⟩ := ih rfl (fun hh => by
        have := hx hh
        rw [ofDir_cons_length, if_neg hd] at this
        omega)
      refine ⟨m :: a', b', by rw [h1]; rfl, ?_, fun d' hd' => ?_⟩
      · rw [ofDir_cons_length, ofDir_cons_length, if_neg hd, h2]; omega
      · rw [ofDir_cons_length, ofDir_cons_length, h3 d' hd']

theorem taken_unsplit {d : Trace.Dir} {bs : List Bytes} {ms ms' : List Msg} (h : Taken d bs ms ms') {a' : List Msg} {x : Msg}
    {b' : List Msg} (e : ms' = a' ++ x :: b') :
    ∃ a b, ms = a ++ x :: b ∧ (x.dir = d → bs.length ≤ (ofDir d a).length) ∧
      (ofDir d a').length = (ofDir d a).length - bs.length ∧ ∀ d', d' ≠ d → (ofDir d' a').length = (ofDir d' a).length := by
  induction h generalizing a' with
  | nil => exact ⟨a', b', e, fun _ => Nat.zero_le _, rfl, fun _ _ => rfl⟩
  | @take m bs ms ms' hd _ ih =>
    obtain ⟨a, b, h1, h2, h3, h4⟩ := ih e
    refine ⟨m :: a, b, by rw [h1]; rfl, fun hh => ?_, ?_, fun d' hd' => ?_⟩
    · rw [ofDir_cons_length, if_pos hd, List.length_cons]
      have := h2 hh
      omega
    · rw [ofDir_cons_length, if_pos hd, List.length_cons, h3]; omega
    · rw [ofDir_cons_length, if_neg (by rw [hd]; exact hd'.symm), h4 d' hd']; omega
  | @skip m c bs ms ms' hd _ ih =>
    cases a' with
    | nil =>
      cases e
      exact ⟨[], ms, rfl, fun hh => absurd hh hd, by simp [ofDir], fun _ _ => rfl⟩
    | cons y a' =>
      cases e
      obtain ⟨a, b, h1, h2, h3, h4⟩ := ih rfl
      refine ⟨m :: a, b, by rw [h1]; rfl, fun hh => ?_, ?_, fun d' hd' => ?_⟩
      · rw [ofDir_cons_length, if_neg hd]
        have := h2 hh
        omega
      · rw [ofDir_cons_length, ofDir_cons_length, if_neg hd, h3]; omega
      · rw [ofDir_cons_length, ofDir_cons_length, h4 d' hd']

theorem allBegun_cons (d : Trace.Dir) (c : List Bytes × Except Err Bytes) (cs : List (List Bytes × Except Err Bytes))
    (a a' : List Msg) (h0 : 1 ≤ (ofDir d a).length) (h : (ofDir d a').length = (ofDir d a).length - c.1.length) :
    AllBegun d (c :: cs) a ↔ AllBegun d cs a' := by
  constructor
  · intro hb j hj
    have := hb (j + 1) (by simp; omega)
    rw [List.take_succ_cons, messages_cons] at this
    omega
  · intro hb j hj
    cases j with
    | zero => simp only [List.take_zero]; exact h0
    | succ j =>
      have := hb j (by simp at hj; omega)
      rw [List.take_succ_cons, messages_cons]
      omega

/-- Showing a frame changes nothing about what is behind what. -/
theorem noneBehind_step {ms ms' : List Msg} {m : Msg} {used : List Bytes} {r : Except Err Bytes}
    (ht : Taken m.dir used (m :: ms) ms') {cs : Trace.Dir → List (List Bytes × Except Err Bytes)}
    {cs' : List (List Bytes × Except Err Bytes)} (hc : cs m.dir = (used, r) :: cs') :
    NoneBehind (m :: ms) cs ↔ NoneBehind ms' (fun d => if d = m.dir then cs' else cs d) := by
  constructor
  · intro h a' x b' e ha d hd hdx
    simp only [] at ha ⊢
    obtain ⟨a, b, h1, h2, h3, h4⟩ := taken_unsplit ht e
    by_cases hx : x.dir = m.dir
    · have hdm : d ≠ m.dir := hx ▸ hdx
      rw [if_neg hdm]
      have hl := h2 hx
      rw [if_pos hx, hx, h3] at ha
      have := h a x b h1 (by rw [hx, hc, messages_cons]; simp only; omega) d hd hdx
      intro j hj
      have := this j hj
      rw [h4 d hdm]
      exact this
    · rw [if_neg hx] at ha
      have ha2 := h a x b h1 (by rw [← h4 _ hx]; exact ha) d hd hdx
      by_cases hdm : d = m.dir
      · subst hdm
        rw [if_pos rfl]
        rw [hc] at ha2
        refine (allBegun_cons _ _ _ a a' ?_ h3).1 ha2
        cases a with
        | nil => cases h1; exact absurd rfl hx
        | cons y a => cases h1; rw [ofDir_cons_length, if_pos rfl]; omega
      · rw [if_neg hdm]
        intro j hj
        have := ha2 j hj
        rw [h4 d hdm]
        exact this
  · intro h a x b e ha d hd hdx
    by_cases hx : x.dir = m.dir
    · rw [hx, hc, messages_cons] at ha
      simp only [] at ha
      obtain ⟨a', b', h1, h2, h3⟩ := taken_split ht e (fun _ => by omega)
      have hdm : d ≠ m.dir := hx ▸ hdx
      have := h a' x b' h1 (by simp only []; rw [if_pos hx, hx, h2]; omega) d hd hdx
      simp only [] at this
      rw [if_neg hdm] at this
      intro j hj
      have := this j hj
      rw [h3 d hdm] at this
      exact this
    · obtain ⟨a', b', h1, h2, h3⟩ := taken_split ht e (fun hh => absurd hh hx)
      have ha2 := h a' x b' h1 (by simp only []; rw [if_neg hx, h3 _ hx]; exact ha) d hd hdx
      simp only [] at ha2
      by_cases hdm : d = m.dir
      · subst hdm
        rw [if_pos rfl] at ha2
        rw [hc]
        refine (allBegun_cons _ _ _ a a' ?_ h2).2 ha2
        cases a with
        | nil => cases e; exact absurd rfl hx
        | cons y a => cases e; rw [ofDir_cons_length, if_pos rfl]; omega
      · rw [if_neg hdm] at ha2
        intro j hj
        have := ha2 j hj
        rw [h3 d hdm] at this
        exact this

/-- C58, exactly: all frames of both directions are shown just if no frame of one direction begins after the messages at the end
of the other one that make no frame. -/
theorem C58_complete_iff {defs : List ReportDef} {ms : List Msg} (hm : ∀ m ∈ ms, m.dir = 0 ∨ m.dir = 1)
    {evs : List (Trace.Dir × Except Err Bytes)} (h : Viewing defs ms evs)
    (cs : Trace.Dir → List (List Bytes × Except Err Bytes)) (tail : Trace.Dir → List Bytes)
    (hf : ∀ d, d = 0 ∨ d = 1 → Cut defs (ofDir d ms) (cs d) (tail d)) :
    (∀ d, d = 0 ∨ d = 1 → shownOf d evs = (cs d).map (·.2)) ↔ NoneBehind ms cs := by
  induction h generalizing cs with
  | done =>
    constructor
    · intro _ a m b e
      cases a <;> cases e
    · intro _ d hd
      rw [(cut_unfinished unfinished_nil (hf d hd)).1]; rfl
  | @cut m ms hu =>
    have hd := hm m (by simp)
    have hcm := (cut_unfinished hu (hf m.dir hd)).1
    constructor
    · intro hs a x b e ha d hd' hdx
      have := hs d hd'
      have : cs d = [] := List.map_eq_nil_iff.1 this.symm
      rw [this]
      intro j hj
      cases hj
    · intro hb d hd'
      by_cases hdm : d = m.dir
      · rw [hdm, hcm]; rfl
      · have := hb [] m ms rfl (by rw [hcm]; rfl) d hd' hdm
        cases hc : cs d with
        | nil => rfl
        | cons c cs' =>
          rw [hc] at this
          have := this 0 (by simp)
          simp [ofDir] at this
  | @frame m ms used ms' r evs h1 h2 h3 ih =>
    obtain ⟨h4, h5⟩ := taken_ofDir h2
    have hd := hm m (by simp)
    have hmd := hf m.dir hd
    rw [h4] at hmd
    obtain ⟨cs', e, h6⟩ := cut_step h1 hmd
    rw [noneBehind_step h2 e]
    rw [← ih (fun x hx => hm x (taken_sub h2 x hx)) (fun d => if d = m.dir then cs' else cs d) (fun d hd' => by
      by_cases hdd : d = m.dir
      · subst hdd; simpa using h6
      · simpa [hdd, ← h5 d hdd] using hf d hd')]
    have key : ∀ d, shownOf d ((m.dir, r) :: evs) = (cs d).map (·.2) ↔
        shownOf d evs = (if d = m.dir then cs' else cs d).map (·.2) := by
      intro d
      by_cases hdd : d = m.dir
      · subst hdd; simp [shownOf, e]
      · simp [shownOf, hdd, Ne.symm hdd]
    simp only [key]

/-- Of a complete outgoing frame and the beginning of an incoming one: where they are cut. -/
def sampleCut (d : Trace.Dir) : List (List Bytes × Except Err Bytes) :=
  if d = 1 then [([[0x05, 0x00, 0x55, 0x02, 0x00, 0x07, 0xF7]], .ok [0x55, 0x02, 0x00, 0x07, 0xF7])] else []

/-- What is left. -/
def sampleTail (d : Trace.Dir) : List Bytes := if d = 1 then [] else [[0x01, 0x02, 0x55]]

theorem sampleCut_ok (d : Trace.Dir) (hd : d = 0 ∨ d = 1) :
    Cut defaultReportDefs (if d = 1 then [[0x05, 0x00, 0x55, 0x02, 0x00, 0x07, 0xF7]] else [[0x01, 0x02, 0x55]]) (sampleCut d)
      (sampleTail d) := by
  rcases hd with rfl | rfl
  · refine .tail ⟨[⟨0x01, 0x02, [0x55]⟩], rfl, ?_⟩
    intro r hr
    simp only [List.mem_cons, List.not_mem_nil, or_false] at hr
    subst hr
    exact ⟨⟨_, accepted_iff.2 ⟨_, rfl, by decide, rfl⟩⟩, by decide⟩
  · exact .cons (rest := []) (sample_oneCall 0x05 (.inr rfl)) (.tail unfinished_nil)

/-- The incoming one last: everything is shown. -/
example (evs : List (Trace.Dir × Except Err Bytes))
    (h : Viewing defaultReportDefs [⟨1, 0, [0x05, 0x00, 0x55, 0x02, 0x00, 0x07, 0xF7]⟩, ⟨0, 0, [0x01, 0x02, 0x55]⟩] evs) :
    ∀ d, d = 0 ∨ d = 1 → shownOf d evs = (sampleCut d).map (·.2) := by
  refine (C58_complete_iff (by simp) h sampleCut sampleTail (fun d hd => ?_)).2 ?_
  · have := sampleCut_ok d hd
    rcases hd with rfl | rfl <;> exact this
  · intro a m b e ha d hd hdm
    match a, e with
    | [], e =>
      cases e
      exact absurd ha (by decide)
    | [x], e =>
      cases e
      rcases hd with rfl | rfl
      · exact absurd rfl hdm
      · intro j hj
        have : j = 0 := by simp [sampleCut] at hj; exact hj
        subst this
        decide
    | _ :: _ :: a, e => cases a <;> cases e

/-- The incoming one first: something is missing. -/
example (evs : List (Trace.Dir × Except Err Bytes))
    (h : Viewing defaultReportDefs [⟨0, 0, [0x01, 0x02, 0x55]⟩, ⟨1, 0, [0x05, 0x00, 0x55, 0x02, 0x00, 0x07, 0xF7]⟩] evs) :
    ¬ ∀ d, d = 0 ∨ d = 1 → shownOf d evs = (sampleCut d).map (·.2) := by
  rw [C58_complete_iff (by simp) h sampleCut sampleTail (fun d hd => by
    have := sampleCut_ok d hd
    rcases hd with rfl | rfl <;> exact this)]
  intro hb
  have := hb [] _ _ rfl (by decide) 1 (.inr rfl) (by decide) 0 (by decide)
  exact absurd this (by decide)

end Props
