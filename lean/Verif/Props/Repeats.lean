import Verif.Spec.Repeats
import Verif.Props.Loss

/-! # Property C101: reports that arrive several times -/

namespace Props
open Go Spec Ipod Ipod.Hid

/-! ## C101 -/

theorem repeats_mem {c : Repeats} {r : Report} (h : r ∈ c.got) : r ∈ c.sent := by
  obtain ⟨p, hp, hr⟩ := List.mem_flatMap.1 h
  rw [(List.mem_replicate.1 hr).2]
  exact List.mem_map_of_mem hp

/-- One call delivers a frame, the following calls the rest. -/
theorem readFrames_step {grow : Growth} {defs : List ReportDef} {used : List Report} {f : Bytes} (h : Delivered defs used f)
    {tail : List (Except Err Report)} {fs : List (Except Err Bytes)} {n : Nat}
    (ht : ∀ buf, readFrames grow defs n tail buf = .ret fs) (buf : Slice) :
    readFrames grow defs (n + 1) (used.map .ok ++ tail) buf = .ret (.ok f :: fs) := by
  obtain ⟨b, g, h1, h2⟩ := (C33_delivered_iff grow defs (used.map .ok ++ tail) tail buf f).2 ⟨used, rfl, h⟩
  rw [readFrames, h1]
  simp only [ht, Out.bind_ret, Except.map, h2]

theorem readFrames_again {grow : Growth} {defs : List ReportDef} {r : Report} (hd : Delivered defs [r] r.data) (m : Nat)
    {tail : List (Except Err Report)} {fs : List (Except Err Bytes)} {n : Nat}
    (ht : ∀ buf, readFrames grow defs n tail buf = .ret fs) (buf : Slice) :
    readFrames grow defs (m + n) ((List.replicate m r).map .ok ++ tail) buf =
      .ret ((List.replicate m r.data).map .ok ++ fs) := by
  induction m generalizing buf with
  | zero => simpa using ht buf
  | succ m ih =>
    have := readFrames_step hd ih buf
    rw [show m + 1 + n = m + n + 1 by omega]
    simpa [List.replicate_succ] using this

/-- The first report of several begins, and is not the last. -/
theorem written_starts {defs : List ReportDef} (hg : GoodTable defs) {frame : Bytes} (hf : frame ≠ []) {r : Report} {rs : List Report}
    (hw : Written defs frame (r :: rs)) : Starts r := by
  have hl := (written_is_chunks hg hf hw).linkSeq
  rw [List.map_cons] at hl
  generalize hq : r.linkControl :: rs.map (·.linkControl) = q at hl
  unfold Starts
  cases hl with
  | single => left; exact (List.cons.inj hq).1
  | several k => right; exact (List.cons.inj hq).1

/-- What one frame makes. -/
theorem heard_one (grow : Growth) {defs : List ReportDef} (hg : GoodTable defs) {frame : Bytes} (hf : frame ≠ []) {c : Repeats}
    (hw : Written defs frame c.sent) {tail : List (Except Err Report)} {fs : List (Except Err Bytes)} {n : Nat}
    (ht : ∀ buf, readFrames grow defs n tail buf = .ret fs) :
    ∃ f, Heard c f ∧ ∀ buf, readFrames grow defs (f.length + n) (c.got.map .ok ++ tail) buf = .ret (f.map .ok ++ fs) := by
  obtain ⟨a1, a2, a3⟩ := written_reports hg hf hw
  obtain ⟨-, init, last, e1, e2, e3⟩ := written_ends hg hf hw
  have alone : ∀ r ∈ c.sent, Ends r → Delivered defs [r] r.data := by
    intro r hr he
    refine ⟨⟨[], r, rfl, he, by simp⟩, by simpa using ⟨_, a1 r hr⟩, [], [r], rfl, ?_, by simp, .inl rfl⟩
    simpa [dataOf] using carried_sent (defs := defs) [r] (by simpa using a1 r hr) (by simpa using a2 r hr)
  rcases c with _ | ⟨⟨r, k⟩, c⟩
  · simp [Repeats.sent] at e1
  rcases List.eq_nil_or_concat c with rfl | ⟨mid, ⟨lst, m⟩, rfl⟩
  · refine ⟨_, .single r k, fun buf => ?_⟩
    have he : Ends r := by
      rcases init with _ | ⟨x, init⟩
      · simp only [Repeats.sent, List.map_cons, List.map_nil, List.nil_append, List.cons.injEq, and_true] at e1
        rw [e1]; exact e2
      · simp [Repeats.sent] at e1
    have := readFrames_again (grow := grow) (alone r (by simp [Repeats.sent]) he) (k + 1) ht buf
    simpa [Repeats.got] using this
  · rw [List.concat_eq_append] at *
    refine ⟨_, .several r k mid lst m, fun buf => ?_⟩
    have hi : init = r :: Repeats.sent mid ∧ lst = last := by
      have : (r :: Repeats.sent mid) ++ [lst] = init ++ [last] := by rw [← e1]; simp [Repeats.sent]
      obtain ⟨h1, h2⟩ := List.append_inj' this rfl
      exact ⟨h1.symm, by simpa using h2⟩
    obtain ⟨rfl, rfl⟩ := hi
    have hsub : ∀ x ∈ Repeats.got mid, x ∈ Repeats.sent ((r, k) :: (mid ++ [(lst, m)])) ∧
        x ∈ (Repeats.sent ((r, k) :: (mid ++ [(lst, m)]))).tail ∧ ¬ Ends x := by
      intro x hx
      have := repeats_mem hx
      refine ⟨?_, ?_, e3 x (.tail _ this)⟩
      · simp only [Repeats.sent, List.map_cons, List.map_append] at this ⊢; simp [this]
      · simp only [Repeats.sent, List.map_cons, List.map_append, List.tail_cons] at this ⊢; simp [this]
    have hr : r ∈ Repeats.sent ((r, k) :: (mid ++ [(lst, m)])) := by simp [Repeats.sent]
    have hl : lst ∈ Repeats.sent ((r, k) :: (mid ++ [(lst, m)])) := by simp [Repeats.sent]
    have hd : Delivered defs (List.replicate k r ++ (r :: (Repeats.got mid ++ [lst]))) (r.data ++ dataOf (Repeats.got mid) ++ lst.data) := by
      refine ⟨⟨List.replicate k r ++ r :: Repeats.got mid, lst, by simp, e2, ?_⟩, ?_, List.replicate k r, _, rfl, ?_, ?_, ?_⟩
      · intro x hx
        rcases List.mem_append.1 hx with hx | hx
        · rw [(List.mem_replicate.1 hx).2]; exact e3 r (.head _)
        · rcases List.mem_cons.1 hx with rfl | hx
          · exact e3 _ (.head _)
          · exact (hsub x hx).2.2
      · intro x hx
        refine ⟨_, a1 x ?_⟩
        rcases List.mem_append.1 hx with hx | hx
        · rw [(List.mem_replicate.1 hx).2]; exact hr
        · rcases List.mem_cons.1 hx with rfl | hx
          · exact hr
          · rcases List.mem_append.1 hx with hx | hx
            · exact (hsub x hx).1
            · rw [List.mem_singleton.1 hx]; exact hl
      · have hm : ∀ x ∈ r :: (Repeats.got mid ++ [lst]), x ∈ Repeats.sent ((r, k) :: (mid ++ [(lst, m)])) := by
          intro x hx
          rcases List.mem_cons.1 hx with rfl | hx
          · exact hr
          · rcases List.mem_append.1 hx with hx | hx
            · exact (hsub x hx).1
            · rw [List.mem_singleton.1 hx]; exact hl
        have := carried_sent (defs := defs) (r :: (Repeats.got mid ++ [lst])) (fun x hx => a1 x (hm x hx)) fun x hx => a2 x (hm x hx)
        simpa [dataOf] using this
      · intro x hx
        rw [List.tail_cons] at hx
        rcases List.mem_append.1 hx with hx | hx
        · exact a3 x (hsub x hx).2.1
        · rw [List.mem_singleton.1 hx]
          exact a3 lst (by simp [Repeats.sent])
      · exact .inr ⟨r, rfl, written_starts hg hf (rs := Repeats.sent (mid ++ [(lst, m)])) hw⟩
    have := readFrames_step hd (fun buf => readFrames_again (grow := grow) (alone lst hl e2) m ht buf) buf
    rw [List.length_cons, List.length_replicate, show m + 1 + n = m + n + 1 by omega]
    have hgot : Repeats.got ((r, k) :: (mid ++ [(lst, m)])) =
        (List.replicate k r ++ (r :: (Repeats.got mid ++ [lst]))) ++ List.replicate m lst := by
      have : Repeats.got ((r, k) :: (mid ++ [(lst, m)])) =
          List.replicate (k + 1) r ++ (Repeats.got mid ++ List.replicate (m + 1) lst) := by simp [Repeats.got]
      rw [this, List.replicate_succ' (n := k), List.replicate_succ (n := m)]
      simp
    rw [hgot, List.map_append, List.append_assoc]
    exact this

theorem heard_unique {c : Repeats} {f g : List Bytes} (h : Heard c f) (h' : Heard c g) : f = g := by
  generalize hc : c = d at h'
  cases h with
  | single r k =>
    cases h' with
    | single => cases hc; rfl
    | several => simp at hc
  | several r k mid last m =>
    cases h' with
    | single => simp at hc
    | several =>
      obtain ⟨h1, h2⟩ := List.cons.inj hc
      obtain ⟨h3, h4⟩ := List.append_inj' h2 rfl
      cases h1; cases h4; rw [h3]

/-- C101. Whatever reports arrive several times in a row: exactly what is delivered. -/
theorem C101_repeated (grow : Growth) (defs : List ReportDef) (hg : GoodTable defs) (cs : List (Bytes × Repeats))
    (h : ∀ p ∈ cs, p.1 ≠ [] ∧ Written defs p.1 p.2.sent) (buf : Slice) :
    ∃ fs, HeardAll (cs.map (·.2)) fs ∧ ∀ k, readFrames grow defs (fs.length + k) ((cs.flatMap (·.2.got)).map .ok) buf =
      .ret (fs.map .ok ++ List.replicate k (.error .eof)) := by
  suffices ∃ fs, HeardAll (cs.map (·.2)) fs ∧ ∀ k buf, readFrames grow defs (fs.length + k) ((cs.flatMap (·.2.got)).map .ok) buf =
      .ret (fs.map .ok ++ List.replicate k (.error .eof)) by
    obtain ⟨fs, h1, h2⟩ := this
    exact ⟨fs, h1, fun k => h2 k buf⟩
  induction cs with
  | nil =>
    refine ⟨[], .nil, fun k buf => ?_⟩
    simpa using readFrames_rest grow hg [] (by simp) buf k
  | cons p cs ih =>
    obtain ⟨fs, i1, i2⟩ := ih fun p hp => h p (.tail _ hp)
    obtain ⟨hf, hw⟩ := h p (.head _)
    obtain ⟨f, j1, -⟩ := heard_one grow hg hf hw (i2 0)
    refine ⟨f ++ fs, .cons j1 i1, fun k buf => ?_⟩
    obtain ⟨f', j1', j2⟩ := heard_one grow hg hf hw (i2 k)
    have : f' = f := heard_unique j1' j1
    subst this
    have := j2 buf
    rw [List.length_append, Nat.add_assoc, List.flatMap_cons, List.map_append, List.map_append, List.append_assoc]
    exact this

theorem heard_length {c : Repeats} {f : List Bytes} (h : Heard c f) : 1 ≤ f.length := by
  cases h <;> simp

theorem heardAll_length {cs : List Repeats} {fs : List Bytes} (h : HeardAll cs fs) : cs.length ≤ fs.length := by
  induction h with
  | nil => exact Nat.le_refl _
  | cons h _ ih => have := heard_length h; simp only [List.length_cons, List.length_append]; omega

theorem dataOf_cons (r : Report) (rs : List Report) : dataOf (r :: rs) = r.data ++ dataOf rs := by simp [dataOf]

theorem dataOf_append (rs ss : List Report) : dataOf (rs ++ ss) = dataOf rs ++ dataOf ss := by simp [dataOf]

/-- Repetitions make longer. -/
theorem repeats_longer (c : Repeats) (hd : ∀ p ∈ c, p.1.data ≠ []) :
    (dataOf c.sent).length ≤ (dataOf c.got).length ∧ ((dataOf c.got).length = (dataOf c.sent).length → ∀ p ∈ c, p.2 = 0) := by
  induction c with
  | nil => exact ⟨Nat.le_refl _, by simp⟩
  | cons p c ih =>
    obtain ⟨i1, i2⟩ := ih fun p hp => hd p (.tail _ hp)
    have h0 : 1 ≤ p.1.data.length := List.length_pos_iff.2 (hd p (.head _))
    have e1 : dataOf (Repeats.sent (p :: c)) = p.1.data ++ dataOf (Repeats.sent c) := dataOf_cons _ _
    have e2 : (dataOf (Repeats.got (p :: c))).length = (p.2 + 1) * p.1.data.length + (dataOf (Repeats.got c)).length := by
      rw [Repeats.got, List.flatMap_cons, dataOf_append, List.length_append]
      rw [Repeats.got]
      congr 1
      simp [dataOf]
    have e3 : (p.2 + 1) * p.1.data.length = p.2 * p.1.data.length + p.1.data.length := Nat.succ_mul _ _
    rw [e1, e2, List.length_append]
    refine ⟨by omega, fun e q hq => ?_⟩
    rcases List.mem_cons.1 hq with rfl | hq
    · have : q.2 * q.1.data.length = 0 := by omega
      rcases Nat.mul_eq_zero.1 this with h | h
      · exact h
      · omega
    · exact i2 (by omega) q hq

theorem repeats_none {c : Repeats} (h : ∀ p ∈ c, p.2 = 0) : c.got = c.sent := by
  induction c with
  | nil => rfl
  | cons p c ih =>
    rw [Repeats.got, List.flatMap_cons, h p (.head _), ← Repeats.got, ih fun p hp => h p (.tail _ hp)]
    rfl

/-- One frame alone, unchanged. -/
theorem heard_exact {c : Repeats} (hd : ∀ p ∈ c, p.1.data ≠ []) {f : List Bytes} (h : Heard c f) :
    f = [dataOf c.sent] ↔ c.Harmless := by
  cases h with
  | single r k =>
    have : dataOf (Repeats.sent [(r, k)]) = r.data := by simp [dataOf, Repeats.sent]
    rw [this, Repeats.Harmless]
    constructor
    · intro e
      have := congrArg List.length e
      simpa using this
    · rintro ⟨-, h⟩
      have : k = 0 := h rfl (r, k) (.head _)
      subst this
      rfl
  | several r k mid last m =>
    have hs : dataOf (Repeats.sent ((r, k) :: (mid ++ [(last, m)]))) = r.data ++ dataOf (Repeats.sent mid) ++ last.data := by
      simp [dataOf, Repeats.sent]
    rw [hs, Repeats.Harmless]
    simp only [List.tail_cons, List.append_eq_nil_iff, List.cons_ne_nil, and_false, false_implies, and_true, List.mem_append,
      List.mem_singleton, List.cons.injEq, List.replicate_eq_nil_iff]
    obtain ⟨-, l2⟩ := repeats_longer mid fun p hp => hd p (by simp [hp])
    constructor
    · rintro ⟨e, rfl⟩ p (hp | rfl)
      · refine l2 ?_ p hp
        have := congrArg List.length e
        simp only [List.length_append] at this
        omega
      · rfl
    · intro h
      exact ⟨by rw [repeats_none fun p hp => h p (.inl hp)], h _ (.inr rfl)⟩

theorem heardAll_exact {cs : List Repeats} (hd : ∀ c ∈ cs, ∀ p ∈ c, p.1.data ≠ []) {fs : List Bytes} (h : HeardAll cs fs) :
    fs = cs.map (fun c => dataOf c.sent) ↔ ∀ c ∈ cs, c.Harmless := by
  induction h with
  | nil => simp
  | @cons c cs f fs h1 h2 ih =>
    have ih := ih fun c hc => hd c (.tail _ hc)
    have hx := heard_exact (hd c (.head _)) h1
    constructor
    · intro e
      have hlen := congrArg List.length e
      have l1 := heard_length h1
      have l2 := heardAll_length h2
      simp only [List.length_append, List.length_map, List.length_cons] at hlen
      rw [List.map_cons, ← List.singleton_append] at e
      obtain ⟨e1, e2⟩ := List.append_inj e (by rw [List.length_singleton]; omega)
      intro c' hc'
      rcases List.mem_cons.1 hc' with rfl | hc'
      · exact hx.1 e1
      · exact ih.1 e2 c' hc'
    · intro h
      rw [hx.2 (h c (.head _)), ih.2 fun c hc => h c (.tail _ hc)]
      rfl

/-- C101, exactly: the frames (with their padding) and nothing else are delivered just if no report is repeated except the first of
frames of several reports. -/
theorem C101_exact_iff (grow : Growth) (defs : List ReportDef) (hg : GoodTable defs) (cs : List (Bytes × Repeats))
    (h : ∀ p ∈ cs, p.1 ≠ [] ∧ Written defs p.1 p.2.sent) (buf : Slice) :
    (∀ k, readFrames grow defs (cs.length + k) ((cs.flatMap (·.2.got)).map .ok) buf =
      .ret (cs.map (fun p => .ok (dataOf p.2.sent)) ++ List.replicate k (.error .eof))) ↔ ∀ p ∈ cs, p.2.Harmless := by
  obtain ⟨fs, h1, h2⟩ := C101_repeated grow defs hg cs h buf
  have hd : ∀ c ∈ cs.map (·.2), ∀ p ∈ c, p.1.data ≠ [] := by
    intro c hc p hp
    obtain ⟨q, hq, rfl⟩ := List.mem_map.1 hc
    obtain ⟨hf, hw⟩ := h q hq
    obtain ⟨d, d1, -, -, d2⟩ := ((written_is_chunks hg hf hw).data hg).1 p.1 (List.mem_map_of_mem hp)
    have := hg.carries d d1
    intro e
    rw [e] at d2
    simp only [ReportDef.maxPayload, List.length_nil] at d2
    omega
  have hx := heardAll_exact hd h1
  have hall : (∀ c ∈ cs.map (·.2), c.Harmless) ↔ ∀ p ∈ cs, p.2.Harmless :=
    ⟨fun h p hp => h _ (List.mem_map_of_mem hp), fun h c hc => by obtain ⟨p, hp, rfl⟩ := List.mem_map.1 hc; exact h p hp⟩
  rw [← hall, ← hx]
  constructor
  · intro e
    have a := e fs.length
    rw [Nat.add_comm, h2 cs.length, Out.ret.injEq] at a
    have b := congrArg (List.countP fun x : Except Err Bytes => match x with | .ok _ => true | .error _ => false) a
    have hn : fs.length = cs.length := by
      simpa [List.countP_append, List.countP_map, List.countP_replicate, Function.comp_def] using b
    rw [hn] at a
    have := List.append_cancel_right a
    have inj : ∀ l l' : List Bytes, l.map (Except.ok (ε := Err)) = l'.map .ok → l = l' := by
      intro l
      induction l with
      | nil => intro l' e; cases l' with
        | nil => rfl
        | cons => simp at e
      | cons x l ih => intro l' e; cases l' with
        | nil => simp at e
        | cons y l' =>
          simp only [List.map_cons, List.cons.injEq, Except.ok.injEq] at e
          rw [e.1, ih l' e.2]
    exact inj _ _ (by rw [this]; simp)
  · intro e k
    have := h2 k
    rw [e] at this
    simpa [Function.comp_def] using this

/-- A frame of five bytes in three reports: the middle one arrives twice, the last three times; then a frame of one report. -/
def repeatCase : List (Bytes × Repeats) :=
  [([1, 2, 3, 4, 5], [(⟨1, 2, [1, 2]⟩, 4), (⟨1, 3, [3, 4]⟩, 1), (⟨1, 1, [5, 0]⟩, 2)]), ([7], [(⟨1, 0, [7, 0]⟩, 1)])]

theorem repeatCase_written : ∀ p ∈ repeatCase, p.1 ≠ [] ∧ Written [⟨1, 3, .accIn⟩] p.1 p.2.sent := by
  intro p hp
  rcases List.mem_cons.1 hp with rfl | hp
  · exact ⟨by decide, ⟨6, by decide⟩⟩
  · rw [List.mem_singleton.1 hp]; exact ⟨by decide, ⟨4, by decide⟩⟩

/-- It meets the hypotheses of `C101_repeated`, and what is delivered is this. -/
example : ∃ fs, HeardAll (repeatCase.map (·.2)) fs ∧ ∀ k, readFrames (fun _ n => 2 * n) [⟨1, 3, .accIn⟩] (fs.length + k)
    ((repeatCase.flatMap (·.2.got)).map .ok) ⟨[], []⟩ = .ret (fs.map .ok ++ List.replicate k (.error .eof)) :=
  C101_repeated _ _ ⟨by decide, by decide, by decide, ⟨⟨1, 3, .accIn⟩, by decide, rfl⟩⟩ _ repeatCase_written _

example : HeardAll (repeatCase.map (·.2)) [[1, 2, 3, 4, 3, 4, 5, 0], [5, 0], [5, 0], [7, 0], [7, 0]] :=
  .cons (.several _ 4 [(⟨1, 3, [3, 4]⟩, 1)] ⟨1, 1, [5, 0]⟩ 2) (.cons (.single ⟨1, 0, [7, 0]⟩ 1) .nil)

/-- The repetitions of the first report alone would do no harm, those of the others do. -/
example : ¬ ∀ p ∈ repeatCase, p.2.Harmless := fun h => by
  have := (h _ (.head _)).1 (⟨1, 3, [3, 4]⟩, 1) (by decide)
  simp at this

example : Repeats.Harmless [(⟨1, 2, [1, 2]⟩, 4), (⟨1, 3, [3, 4]⟩, 0), (⟨1, 1, [5, 0]⟩, 0)] :=
  ⟨by decide, by decide⟩

end Props
