import Verif.Spec.Loss
import Verif.Spec.Afresh
import Verif.Props.Session

/-! # Property C94: lost reports -/

namespace Props
open Go Spec Ipod Ipod.Hid

/-! ## C94 -/

theorem accepted_of_known {defs : List ReportDef} (hg : GoodTable defs) {r : Report} (h : ∃ d ∈ defs, d.id = r.id.toNat) :
    ∃ b, Accepted defs r b := by
  obtain ⟨d, d1, d2⟩ := h
  obtain ⟨d', hd'⟩ : ∃ d', find defs r.id.toNat = some d' := by
    cases h : find defs r.id.toNat with
    | some d' => exact ⟨d', rfl⟩
    | none => exact absurd d2 (find_none.1 h d d1)
  have hm : d' ∈ defs := by
    obtain ⟨pre, post, e, _⟩ := find_some.1 hd'
    rw [e]; simp
  have := hg.carries d' hm
  exact ⟨_, accepted_iff.2 ⟨d', hd', by simp only [ReportDef.maxPayload]; omega, rfl⟩⟩

/-- After the last end only errors follow. -/
theorem readFrames_rest (grow : Growth) {defs : List ReportDef} (hg : GoodTable defs) (stray : List Report)
    (hs : ∀ r ∈ stray, (∃ d ∈ defs, d.id = r.id.toNat) ∧ ¬ Ends r) (buf : Slice) (k : Nat) :
    readFrames grow defs k (stray.map .ok) buf = .ret (List.replicate k (.error .eof)) := by
  induction k generalizing stray buf with
  | zero => rfl
  | succ k ih =>
    obtain ⟨b1, h1⟩ := readFrameLoop_junk (grow := grow) (defs := defs) stray
      (fun r hr => ⟨accepted_of_known hg (hs r hr).1, (hs r hr).2⟩) [] buf.reset
    rw [List.append_nil] at h1
    rw [readFrames]
    simp only [readFrame, h1, readFrameLoop]
    have := ih [] (by simp) b1
    rw [List.map_nil] at this
    rw [this]
    rfl

theorem readFrame_ends (grow : Growth) {defs : List ReportDef} (hg : GoodTable defs) (stray : List Report)
    (hs : ∀ r ∈ stray, (∃ d ∈ defs, d.id = r.id.toNat) ∧ ¬ Ends r) {r : Report} (hr : ∃ d ∈ defs, d.id = r.id.toNat) (he : Ends r)
    (tail : List (Except Err Report)) (buf : Slice) :
    ∃ b f, readFrame grow defs (stray.map .ok ++ .ok r :: tail) buf = .ret (tail, b, .ok f) := by
  obtain ⟨b1, h1⟩ := readFrameLoop_junk (grow := grow) (defs := defs) stray
    (fun r hr => ⟨accepted_of_known hg (hs r hr).1, (hs r hr).2⟩) (.ok r :: tail) buf.reset
  obtain ⟨x, hx⟩ := accepted_of_known hg hr
  obtain ⟨b', f, h2, _⟩ := (readFrameLoop_run grow defs (.ok r :: tail) b1 tail _).2 ⟨[r], rfl, .stop hx he⟩
  exact ⟨b', f, by rw [readFrame, h1, h2]⟩

/-- C94, number: as many frames are delivered as reports ending a frame arrived. -/
theorem C94_count (grow : Growth) (defs : List ReportDef) (hg : GoodTable defs) (rs : List Report)
    (hk : ∀ r ∈ rs, ∃ d ∈ defs, d.id = r.id.toNat) (buf : Slice) :
    ∃ frames : List Bytes, frames.length = rs.countP (fun r => decide (Ends r)) ∧ ∀ k,
      readFrames grow defs (frames.length + k) (rs.map .ok) buf = .ret (frames.map .ok ++ List.replicate k (.error .eof)) := by
  suffices ∀ stray : List Report, (∀ r ∈ stray, (∃ d ∈ defs, d.id = r.id.toNat) ∧ ¬ Ends r) →
      ∃ frames : List Bytes, frames.length = rs.countP (fun r => decide (Ends r)) ∧ ∀ k,
      readFrames grow defs (frames.length + k) (stray.map .ok ++ rs.map .ok) buf =
        .ret (frames.map .ok ++ List.replicate k (.error .eof)) by
    simpa using this [] (by simp)
  induction rs generalizing buf with
  | nil =>
    intro stray hs
    refine ⟨[], rfl, fun k => ?_⟩
    simpa using readFrames_rest grow hg stray hs buf k
  | cons r rs ih =>
    intro stray hs
    by_cases he : Ends r
    · obtain ⟨b, f, h1⟩ := readFrame_ends grow hg stray hs (hk r (.head _)) he (rs.map .ok) buf
      obtain ⟨frames, h2, h3⟩ := ih (fun r hr => hk r (.tail _ hr)) b [] (by simp)
      refine ⟨f.data :: frames, ?_, fun k => ?_⟩
      · rw [List.length_cons, h2, List.countP_cons_of_pos (by simpa using he)]
      · rw [List.length_cons, show frames.length + 1 + k = (frames.length + k) + 1 by omega, readFrames, List.map_cons, h1]
        have := h3 k
        rw [List.map_nil, List.nil_append] at this
        simp only [this, Out.bind_ret]
        rfl
    · obtain ⟨frames, h2, h3⟩ := ih (fun r hr => hk r (.tail _ hr)) buf (stray ++ [r]) (by
        intro x hx
        rcases List.mem_append.1 hx with hx | hx
        · exact hs x hx
        · rw [List.mem_singleton.1 hx]; exact ⟨hk r (.head _), he⟩)
      refine ⟨frames, ?_, fun k => ?_⟩
      · rw [h2, List.countP_cons_of_neg (by simpa using he)]
      · simpa using h3 k

example : ∃ frames : List Bytes, frames.length = 2 ∧ ∀ k, readFrames (fun _ n => 2 * n) [⟨1, 3, .accIn⟩] (frames.length + k)
    (([⟨1, 2, [1, 2]⟩, ⟨1, 0, [3]⟩, ⟨1, 3, [4]⟩, ⟨1, 1, [5]⟩, ⟨1, 2, [6]⟩] : List Report).map .ok) ⟨[], []⟩ =
      .ret (frames.map .ok ++ List.replicate k (.error .eof)) :=
  C94_count (fun _ n => 2 * n) [⟨1, 3, .accIn⟩] ⟨by decide, by decide, by decide, ⟨⟨1, 3, .accIn⟩, by decide, rfl⟩⟩
    [⟨1, 2, [1, 2]⟩, ⟨1, 0, [3]⟩, ⟨1, 3, [4]⟩, ⟨1, 1, [5]⟩, ⟨1, 2, [6]⟩] (by decide) ⟨[], []⟩

/-- What was written: the last report ends, no other does. -/
theorem written_ends {defs : List ReportDef} (hg : GoodTable defs) {frame : Bytes} (hf : frame ≠ []) {rs : List Report}
    (hw : Written defs frame rs) :
    (∀ r ∈ rs, ∃ d ∈ defs, d.id = r.id.toNat) ∧ ∃ init last, rs = init ++ [last] ∧ Ends last ∧ ∀ r ∈ init, ¬ Ends r := by
  have hc := written_is_chunks hg hf hw
  refine ⟨fun r hr => ?_, ?_⟩
  · obtain ⟨d, d1, _, d2, _⟩ := (hc.data hg).1 r hr
    exact ⟨d, d1, d2.symm⟩
  · have hl := hc.linkSeq
    obtain ⟨init, last, rfl⟩ : ∃ init last, rs = init ++ [last] :=
      ⟨rs.dropLast, rs.getLast hc.ne_nil, (List.dropLast_concat_getLast hc.ne_nil).symm⟩
    refine ⟨init, last, rfl, ?_⟩
    rw [List.map_append, List.map_singleton] at hl
    generalize hq : init.map (·.linkControl) ++ [last.linkControl] = q at hl
    cases hl with
    | single =>
      cases init with
      | nil => simp only [List.map_nil, List.nil_append, List.cons.injEq, and_true] at hq; exact ⟨.inl hq, by simp⟩
      | cons a init => simp at hq
    | several k =>
      rw [← List.cons_append] at hq
      obtain ⟨h1, h2⟩ := List.append_inj' hq rfl
      simp only [List.cons.injEq, and_true] at h2
      refine ⟨.inr h2, fun r hr => ?_⟩
      have : r.linkControl ∈ init.map (·.linkControl) := List.mem_map_of_mem hr
      rw [h1] at this
      rcases List.mem_cons.1 this with h | h
      · unfold Ends; rw [h]; decide
      · unfold Ends; rw [(List.mem_replicate.1 h).2]; decide

/-- What is needed of a transfer. -/
def Sent (defs : List ReportDef) (t : Transfer) : Prop :=
  t.frame ≠ [] ∧ Written defs t.frame t.sent ∧ t.got.Sublist t.sent

/-- How many ends arrived of a transfer. -/
theorem transfer_ends {defs : List ReportDef} (hg : GoodTable defs) {t : Transfer} (h : Sent defs t) :
    (∀ r ∈ t.got, ∃ d ∈ defs, d.id = r.id.toNat) ∧
    ((t.EndLost ∧ ∀ r ∈ t.got, ¬ Ends r) ∨ (¬ t.EndLost ∧ t.got.countP (fun r => decide (Ends r)) = 1)) := by
  obtain ⟨h1, h2, h3⟩ := h
  obtain ⟨e1, init, last, e2, e3, e4⟩ := written_ends hg h1 h2
  refine ⟨fun r hr => e1 r (h3.subset hr), ?_⟩
  by_cases hl : t.EndLost
  · refine .inl ⟨hl, fun r hr => ?_⟩
    have := hl.subset hr
    rw [e2, List.dropLast_concat] at this
    exact e4 r this
  · refine .inr ⟨hl, ?_⟩
    rw [Transfer.EndLost, e2, List.dropLast_concat] at hl
    rw [e2] at h3
    obtain ⟨l1, l2, h4, h5, h6⟩ := List.sublist_append_iff.1 h3
    rcases l2 with _ | ⟨y, l2⟩
    · rw [List.append_nil] at h4; rw [h4] at hl; exact absurd h5 hl
    · obtain ⟨rfl, rfl⟩ : y = last ∧ l2 = [] := by
        have := h6.length_le
        simp only [List.length_cons, List.length_nil] at this
        have hl2 : l2 = [] := List.length_eq_zero_iff.1 (by omega)
        subst hl2
        exact ⟨by simpa using h6.subset (List.mem_singleton.2 rfl), rfl⟩
      rw [h4, List.countP_append, List.countP_singleton, if_pos (by simpa using e3),
        List.countP_eq_zero.2 (fun r hr => by simpa using e4 r (h5.subset hr))]

theorem arrived_map (ts : List Transfer) : arrived ts = (ts.flatMap (·.got)).map .ok := by
  simp [arrived, List.map_flatMap]

theorem intact_length {ts : List Transfer} {fs : List Bytes} (h : Intact ts fs) :
    fs.length = ts.countP (fun t => decide t.Complete) := by
  induction h with
  | nil => rfl
  | whole hc _ _ ih => rw [List.length_cons, ih, List.countP_cons_of_pos (by simpa using hc)]
  | lost hc _ ih => rw [ih, List.countP_cons_of_neg (by simpa using hc)]

/-- C94 (partial). If of every incomplete frame the last report is among those lost, exactly the complete frames are delivered, in
order. Missing: other losses, see `C94_exact_iff` and `C94_truncated`. -/
theorem C94_loss_partial (grow : Growth) (defs : List ReportDef) (hg : GoodTable defs) (ts : List Transfer)
    (h : ∀ t ∈ ts, Sent defs t) (hl : ∀ t ∈ ts, t.Complete ∨ t.EndLost) (buf : Slice) :
    ∃ fs, Intact ts fs ∧ ∀ k, readFrames grow defs (fs.length + k) (arrived ts) buf =
      .ret (fs.map .ok ++ List.replicate k (.error .eof)) := by
  suffices ∀ stray : List Report, (∀ r ∈ stray, (∃ d ∈ defs, d.id = r.id.toNat) ∧ ¬ Ends r) →
      ∃ fs, Intact ts fs ∧ ∀ k, readFrames grow defs (fs.length + k) (stray.map .ok ++ arrived ts) buf =
        .ret (fs.map .ok ++ List.replicate k (.error .eof)) by
    simpa using this [] (by simp)
  induction ts generalizing buf with
  | nil =>
    intro stray hs
    refine ⟨[], .nil, fun k => ?_⟩
    simpa [arrived] using readFrames_rest grow hg stray hs buf k
  | cons t ts ih =>
    intro stray hs
    have ih := fun buf => ih (fun t ht => h t (.tail _ ht)) (fun t ht => hl t (.tail _ ht)) buf
    have ht := h t (.head _)
    by_cases hc : t.Complete
    · obtain ⟨b, f, pad, e1, e2, e3, _⟩ := C32_recovers grow defs hg stray
        (fun r hr => ⟨(hs r hr).1, fun e => (hs r hr).2 (.inl e), fun e => (hs r hr).2 (.inr e)⟩) t.frame ht.1 t.sent ht.2.1
        (arrived ts) buf
      obtain ⟨fs, i1, i2⟩ := ih b [] (by simp)
      refine ⟨_, .whole hc e3 i1, fun k => ?_⟩
      have i2 := i2 k
      rw [List.map_nil, List.nil_append] at i2
      rw [List.length_cons, show fs.length + 1 + k = (fs.length + k) + 1 by omega, readFrames,
        show arrived (t :: ts) = t.sent.map .ok ++ arrived ts by simp only [arrived, List.flatMap_cons]; rw [show t.got = t.sent from hc],
        ← List.append_assoc, e1]
      simp only [i2, Out.bind_ret, Except.map, e2]
      rfl
    · have he : t.EndLost := (hl t (.head _)).resolve_left hc
      obtain ⟨k1, k2⟩ := transfer_ends hg ht
      have k2 := (k2.resolve_right fun x => x.1 he).2
      obtain ⟨fs, i1, i2⟩ := ih buf (stray ++ t.got) (by
        intro r hr
        rcases List.mem_append.1 hr with hr | hr
        · exact hs r hr
        · exact ⟨k1 r hr, k2 r hr⟩)
      refine ⟨fs, .lost hc i1, fun k => ?_⟩
      have := i2 k
      rw [List.map_append, List.append_assoc] at this
      exact this

/-- C94, exactly: the complete frames and nothing else are delivered just if of every incomplete frame the last report is lost. -/
theorem C94_exact_iff (grow : Growth) (defs : List ReportDef) (hg : GoodTable defs) (ts : List Transfer)
    (h : ∀ t ∈ ts, Sent defs t) (buf : Slice) :
    (∃ fs, Intact ts fs ∧ ∀ k, readFrames grow defs (fs.length + k) (arrived ts) buf =
      .ret (fs.map .ok ++ List.replicate k (.error .eof))) ↔
    ∀ t ∈ ts, t.Complete ∨ t.EndLost := by
  refine ⟨fun ⟨fs, h1, h2⟩ => ?_, fun hl => C94_loss_partial grow defs hg ts h hl buf⟩
  obtain ⟨frames, c1, c2⟩ := C94_count grow defs hg (ts.flatMap (·.got)) (by
    intro r hr
    obtain ⟨t, ht, hr⟩ := List.mem_flatMap.1 hr
    exact (transfer_ends hg (h t ht)).1 r hr) buf
  rw [← arrived_map] at c2
  have hn : fs.length = frames.length := by
    have a := h2 frames.length
    rw [Nat.add_comm, c2 fs.length, Out.ret.injEq] at a
    have b := congrArg (List.countP fun x : Except Err Bytes => match x with | .ok _ => true | .error _ => false) a
    simpa [List.countP_append, List.countP_map, List.countP_replicate, Function.comp_def] using b.symm
  rw [c1, intact_length h1] at hn
  clear c1 c2 h1 h2
  have key : ∀ ts : List Transfer, (∀ t ∈ ts, Sent defs t) →
      ts.countP (fun t => decide t.Complete) ≤ (ts.flatMap (·.got)).countP (fun r => decide (Ends r)) ∧
      (ts.countP (fun t => decide t.Complete) = (ts.flatMap (·.got)).countP (fun r => decide (Ends r)) →
        ∀ t ∈ ts, t.Complete ∨ t.EndLost) := by
    intro ts
    induction ts with
    | nil => intro _; exact ⟨Nat.le_refl _, by simp⟩
    | cons t ts ih =>
      intro h
      obtain ⟨i1, i2⟩ := ih fun t ht => h t (.tail _ ht)
      have hs := h t (.head _)
      obtain ⟨-, he⟩ := transfer_ends hg hs
      rw [List.flatMap_cons, List.countP_append, List.countP_cons]
      by_cases hc : t.Complete
      · have : t.got.countP (fun r => decide (Ends r)) = 1 := by
          rcases he with ⟨a, -⟩ | ⟨-, b⟩
          · rw [Transfer.EndLost, show t.got = t.sent from hc] at a
            have := a.length_le
            obtain ⟨-, init, last, e, -⟩ := written_ends hg hs.1 hs.2.1
            rw [e] at this
            simp only [List.length_append, List.length_cons, List.length_nil, List.dropLast_concat] at this
            omega
          · exact b
        rw [if_pos (by simpa using hc), this]
        refine ⟨by omega, fun e t' ht' => ?_⟩
        rcases List.mem_cons.1 ht' with rfl | ht'
        · exact .inl hc
        · exact i2 (by omega) t' ht'
      · rw [if_neg (by simpa using hc)]
        rcases he with ⟨a, b⟩ | ⟨-, b⟩
        · have b : t.got.countP (fun r => decide (Ends r)) = 0 := List.countP_eq_zero.2 fun r hr => by simpa using b r hr
          rw [b]
          refine ⟨by omega, fun e t' ht' => ?_⟩
          rcases List.mem_cons.1 ht' with rfl | ht'
          · exact .inr a
          · exact i2 (by omega) t' ht'
        · rw [b]
          exact ⟨by omega, fun e => by omega⟩
  exact (key ts h).2 hn

/-- Of a report that was written all the data counts. -/
theorem accepted_filled {defs : List ReportDef} (hg : GoodTable defs) {d : ReportDef} (hd : d ∈ defs) {r : Report} (h : FilledBy d r) :
    Accepted defs r r.data := by
  obtain ⟨_, h1, h2⟩ := h
  have h3 := find_pick hg hd
  obtain ⟨b0, b1⟩ := hg.isByte d hd
  rw [byteOfInt_toNat b0 b1, ← h1] at h3
  exact accepted_iff.2 ⟨d, h3, by omega, by rw [List.take_of_length_le (by omega)]⟩

theorem carried_sent {defs : List ReportDef} (rs : List Report) (h1 : ∀ r ∈ rs, Accepted defs r r.data)
    (h2 : ∀ r ∈ rs, Known r) : Carried defs rs (dataOf rs) := by
  induction rs with
  | nil => exact .nil
  | cons r rs ih =>
    exact .cons (h2 r (.head _)) (h1 r (.head _)) (ih (fun r hr => h1 r (.tail _ hr)) fun r hr => h2 r (.tail _ hr))

/-- The reports of a frame: all data counts, only the first begins, the link control is defined. -/
theorem written_reports {defs : List ReportDef} (hg : GoodTable defs) {frame : Bytes} (hf : frame ≠ []) {rs : List Report}
    (hw : Written defs frame rs) :
    (∀ r ∈ rs, Accepted defs r r.data) ∧ (∀ r ∈ rs, Known r) ∧ ∀ r ∈ rs.tail, ¬ Starts r := by
  have hc := written_is_chunks hg hf hw
  have hl := hc.linkSeq
  refine ⟨fun r hr => ?_, fun r hr => ?_, fun r hr => ?_⟩
  · obtain ⟨d, d1, d2⟩ := (hc.data hg).1 r hr
    exact accepted_filled hg d1 d2
  · have hm : r.linkControl ∈ rs.map (·.linkControl) := List.mem_map_of_mem hr
    generalize rs.map (·.linkControl) = q at hl hm
    unfold Known
    cases hl with
    | single => rw [List.mem_singleton.1 hm]; decide
    | several k =>
      simp only [List.mem_cons, List.mem_append, List.mem_replicate, List.not_mem_nil, or_false] at hm
      rcases hm with h | h | h
      · rw [h]; decide
      · rw [h.2]; decide
      · rw [h]; decide
  · have hm : r.linkControl ∈ (rs.map (·.linkControl)).tail := by rw [← List.map_tail]; exact List.mem_map_of_mem hr
    generalize rs.map (·.linkControl) = q at hl hm
    unfold Starts
    cases hl with
    | single => simp at hm
    | several k =>
      simp only [List.tail_cons, List.mem_cons, List.mem_append, List.mem_replicate, List.not_mem_nil, or_false] at hm
      rcases hm with h | h
      · rw [h.2]; decide
      · rw [h]; decide

theorem sublist_tail {α : Type} {l₁ l₂ : List α} (h : l₁.Sublist l₂) : l₁.tail.Sublist l₂.tail := by
  cases h with
  | slnil => exact .slnil
  | cons a h => exact (List.tail_sublist _).trans h
  | cons_cons a h => exact h

/-- C94, what is delivered instead: if the last report of a frame arrives, whatever else of it is lost, the data of the reports that
arrived is delivered as a frame. -/
theorem C94_truncated (grow : Growth) (defs : List ReportDef) (hg : GoodTable defs) (t : Transfer) (h : Sent defs t)
    (he : ¬ t.EndLost) (tail : List (Except Err Report)) (buf : Slice) :
    ∃ b f, readFrame grow defs (t.got.map .ok ++ tail) buf = .ret (tail, b, .ok f) ∧ f.data = dataOf t.got := by
  obtain ⟨a1, a2, a3⟩ := written_reports hg h.1 h.2.1
  refine (C33_delivered_iff grow defs _ tail buf _).2 ⟨t.got, rfl, ?_, fun r hr => ⟨_, a1 r (h.2.2.subset hr)⟩, [], t.got, rfl,
    carried_sent _ (fun r hr => a1 r (h.2.2.subset hr)) (fun r hr => a2 r (h.2.2.subset hr)),
    fun r hr => a3 r ((sublist_tail h.2.2).subset hr), .inl rfl⟩
  obtain ⟨-, init, last, e2, e3, e4⟩ := written_ends hg h.1 h.2.1
  have hs := h.2.2
  rw [e2] at hs
  obtain ⟨l1, l2, h4, h5, h6⟩ := List.sublist_append_iff.1 hs
  rw [Transfer.EndLost, e2, List.dropLast_concat] at he
  rcases l2 with _ | ⟨y, l2⟩
  · rw [List.append_nil] at h4; rw [h4] at he; exact absurd h5 he
  · obtain ⟨rfl, rfl⟩ : y = last ∧ l2 = [] := by
      have := h6.length_le
      simp only [List.length_cons, List.length_nil] at this
      have hl2 : l2 = [] := List.length_eq_zero_iff.1 (by omega)
      subst hl2
      exact ⟨by simpa using h6.subset (List.mem_singleton.2 rfl), rfl⟩
    exact ⟨l1, y, h4, e3, fun r hr => e4 r (h5.subset hr)⟩

/-- C94, what is delivered instead: if the end of a frame is lost and the beginning of the next, one frame is made of both. -/
theorem C94_glued (grow : Growth) (defs : List ReportDef) (hg : GoodTable defs) (t u : Transfer) (ht : Sent defs t) (hu : Sent defs u)
    (h1 : t.EndLost) (h2 : ¬ u.EndLost) (h3 : u.got.Sublist u.sent.tail) (tail : List (Except Err Report)) (buf : Slice) :
    ∃ b f, readFrame grow defs (arrived [t, u] ++ tail) buf = .ret (tail, b, .ok f) ∧ f.data = dataOf t.got ++ dataOf u.got := by
  obtain ⟨a1, a2, a3⟩ := written_reports hg ht.1 ht.2.1
  obtain ⟨b1, b2, b3⟩ := written_reports hg hu.1 hu.2.1
  obtain ⟨init, last, rfl', he, hi⟩ : ∃ init last, u.got = init ++ [last] ∧ Ends last ∧ ∀ r ∈ init, ¬ Ends r := by
    obtain ⟨used, e1, e2, -⟩ := (C33_delivered_iff grow defs (u.got.map .ok ++ []) [] buf (dataOf u.got)).1 (by
      obtain ⟨b, f, k1, k2⟩ := C94_truncated grow defs hg u hu h2 [] buf
      exact ⟨b, f, k1, k2⟩)
    rw [List.append_nil, List.append_nil] at e1
    have : u.got = used := by
      have := congrArg (List.filterMap Except.toOption) e1
      simpa [List.filterMap_map, Function.comp_def, Except.toOption] using this
    rw [this]; exact e2
  have hn := ((transfer_ends hg ht).2.resolve_right fun x => x.1 h1).2
  have hst : ∀ r ∈ u.got, ¬ Starts r := fun r hr => b3 r (h3.subset hr)
  refine (C33_delivered_iff grow defs _ tail buf _).2 ⟨t.got ++ u.got, by simp [arrived], ⟨t.got ++ init, last, by rw [rfl', List.append_assoc],
    he, ?_⟩, ?_, [], t.got ++ u.got, rfl, ?_, ?_, .inl rfl⟩
  · intro r hr
    rcases List.mem_append.1 hr with hr | hr
    · exact hn r hr
    · exact hi r hr
  · intro r hr
    rcases List.mem_append.1 hr with hr | hr
    · exact ⟨_, a1 r (ht.2.2.subset hr)⟩
    · exact ⟨_, b1 r (hu.2.2.subset hr)⟩
  · rw [show dataOf t.got ++ dataOf u.got = dataOf (t.got ++ u.got) by simp [dataOf]]
    refine carried_sent _ ?_ ?_
    · intro r hr
      rcases List.mem_append.1 hr with hr | hr
      · exact a1 r (ht.2.2.subset hr)
      · exact b1 r (hu.2.2.subset hr)
    · intro r hr
      rcases List.mem_append.1 hr with hr | hr
      · exact a2 r (ht.2.2.subset hr)
      · exact b2 r (hu.2.2.subset hr)
  · intro r hr
    cases ht' : t.got with
    | nil =>
      rw [ht', List.nil_append] at hr
      exact hst r (List.mem_of_mem_tail hr)
    | cons x xs =>
      rw [ht', List.cons_append, List.tail_cons] at hr
      rcases List.mem_append.1 hr with hr | hr
      · exact a3 r ((sublist_tail ht.2.2).subset (by rw [ht']; exact hr))
      · exact hst r hr

/-- A section of a certificate, as an accessory may send it. -/
def certFrame : Bytes :=
  [0x55, 0x40, 0x00, 0x15, 0x02, 0x00, 0x00, 0x00] ++ List.replicate 54 0x00 ++ [0x55, 0xFF, 0x01, 0x02, 0x52]

/-- Its first report. -/
def certFirst : Report := ⟨0x09, 0x02, [0x55, 0x40, 0x00, 0x15, 0x02, 0x00, 0x00, 0x00] ++ List.replicate 54 0x00⟩

/-- Its second report. -/
def certSecond : Report := ⟨0x01, 0x01, [0x55, 0xFF, 0x01, 0x02, 0x52, 0, 0, 0, 0, 0, 0]⟩

theorem certFrame_written : Written defaultReportDefs certFrame [certFirst, certSecond] := ⟨68, by decide +kernel⟩

theorem certFrame_packet : IsPacket ([0x00, 0x15, 0x02, 0x00, 0x00, 0x00] ++ List.replicate 54 0x00 ++ [0x55, 0xFF, 0x01, 0x02]) certFrame :=
  ⟨[0x40], 0x52, .inl ⟨0x40, by decide, rfl, rfl⟩, rfl, by decide +kernel⟩

/-- C94 fails: the two reports of a frame with one correct packet are answered; if the first gets lost the server dies of the
second, whatever the device. -/
theorem C94_fails :
    written (serve devGeneral (fun _ => ⟨2024, 1, 2, 3, 4⟩) (fun _ n => 2 * n) defaultReportDefs (arriving [certFirst, certSecond])
      (Srv.init DevGeneral.zero)) =
      .ret [[0x55, 0x02, 0x0A, 0x02, 0xF2], [0x55, 0x03, 0x00, 0x16, 0x00, 0xE7],
        [0x55, 0x17, 0x00, 0x17] ++ List.replicate 21 0x00 ++ [0xD2]] ∧
    ∀ {σ : Type} (D : Device σ) (clock : Clock) (grow : Growth) (dev : σ),
      serve D clock grow defaultReportDefs (arriving [certSecond]) (Srv.init dev) = .panic := by
  refine ⟨by decide +kernel, fun D clock grow dev => ?_⟩
  have h : frameReads grow defaultReportDefs 1 ((arriving [certSecond]).map rawReadReport) ⟨[], []⟩ =
      .ret [.ok ⟨[0x55, 0xFF, 0x01, 0x02, 0x52, 0, 0, 0, 0, 0, 0], List.replicate 53 0⟩] := rfl
  simp only [serve, show (arriving [certSecond]).length = 1 from rfl, h, Out.bind_ret]
  refine (C54_panics_iff _ _ _ _).2 ⟨[], _, [], _, [], [], true, rfl, by simp, rfl, ?_, .inl rfl⟩
  exact .crash (j := []) (by decide) ⟨[0xff], [0x01, 0x02, 0x52, 0, 0, 0, 0, 0, 0], 255, rfl, .inl ⟨0xff, by decide, rfl, rfl⟩,
    by decide, by decide, .inl (by decide)⟩

/-- Three reports of a frame of which the second is lost: the frame delivered lacks the middle. -/
example : ∃ b f, readFrame (fun _ n => 2 * n) [⟨1, 3, .accIn⟩] (([⟨1, 2, [1, 2]⟩, ⟨1, 1, [5, 0]⟩] : List Report).map .ok ++ []) ⟨[], []⟩ =
    .ret ([], b, .ok f) ∧ f.data = [1, 2, 5, 0] :=
  C94_truncated _ _ ⟨by decide, by decide, by decide, ⟨⟨1, 3, .accIn⟩, by decide, rfl⟩⟩
    ⟨[1, 2, 3, 4, 5], [⟨1, 2, [1, 2]⟩, ⟨1, 3, [3, 4]⟩, ⟨1, 1, [5, 0]⟩], [⟨1, 2, [1, 2]⟩, ⟨1, 1, [5, 0]⟩]⟩
    ⟨by decide, ⟨6, by decide⟩, by decide⟩ (by unfold Transfer.EndLost; decide) [] _

/-- Two frames: the end of the first and the beginning of the second are lost. -/
example : ∃ b f, readFrame (fun _ n => 2 * n) [⟨1, 3, .accIn⟩] (arrived
    [⟨[1, 2, 3], [⟨1, 2, [1, 2]⟩, ⟨1, 1, [3, 0]⟩], [⟨1, 2, [1, 2]⟩]⟩, ⟨[7, 8, 9], [⟨1, 2, [7, 8]⟩, ⟨1, 1, [9, 0]⟩], [⟨1, 1, [9, 0]⟩]⟩] ++ [])
    ⟨[], []⟩ = .ret ([], b, .ok f) ∧ f.data = [1, 2, 9, 0] :=
  C94_glued _ _ ⟨by decide, by decide, by decide, ⟨⟨1, 3, .accIn⟩, by decide, rfl⟩⟩ _ _
    ⟨by decide, ⟨4, by decide⟩, by decide⟩ ⟨by decide, ⟨4, by decide⟩, by decide⟩ (by unfold Transfer.EndLost; decide)
    (by unfold Transfer.EndLost; decide) (by decide) [] _

/-- Hypotheses of `C94_loss_partial`: of the first frame the end is lost, the second arrives. -/
example : ∃ fs, Intact [⟨[1, 2, 3], [⟨1, 2, [1, 2]⟩, ⟨1, 1, [3, 0]⟩], [⟨1, 2, [1, 2]⟩]⟩, ⟨[7], [⟨1, 0, [7, 0]⟩], [⟨1, 0, [7, 0]⟩]⟩] fs ∧
    ∀ k, readFrames (fun _ n => 2 * n) [⟨1, 3, .accIn⟩] (fs.length + k) (arrived
      [⟨[1, 2, 3], [⟨1, 2, [1, 2]⟩, ⟨1, 1, [3, 0]⟩], [⟨1, 2, [1, 2]⟩]⟩, ⟨[7], [⟨1, 0, [7, 0]⟩], [⟨1, 0, [7, 0]⟩]⟩]) ⟨[], []⟩ =
      .ret (fs.map .ok ++ List.replicate k (.error .eof)) :=
  C94_loss_partial _ _ ⟨by decide, by decide, by decide, ⟨⟨1, 3, .accIn⟩, by decide, rfl⟩⟩ _
    (by
      intro t ht
      rcases List.mem_cons.1 ht with rfl | ht
      · exact ⟨by decide, ⟨4, by decide⟩, by decide⟩
      · rw [List.mem_singleton.1 ht]; exact ⟨by decide, ⟨4, by decide⟩, by decide⟩)
    (by
      intro t ht
      rcases List.mem_cons.1 ht with rfl | ht
      · exact .inr (by unfold Transfer.EndLost; decide)
      · rw [List.mem_singleton.1 ht]; exact .inl rfl) _

end Props
