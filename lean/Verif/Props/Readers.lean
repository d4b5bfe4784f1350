import Verif.Spec.Readers
import Verif.Spec.Confirmed
import Verif.Props.Order
import Verif.Props.Single

/-! # Property C126: goroutines that read frames from one transport -/

namespace Props
open Go Spec Ipod Ipod.Hid

theorem reportsRead_append (a b : List Act) : reportsRead (a ++ b) = reportsRead a ++ reportsRead b := by
  induction a with
  | nil => rfl
  | cons x a ih =>
    cases x with
    | call i => simpa [reportsRead] using ih
    | read i x r => cases x <;> simp [reportsRead, ih]

theorem reportsRead_calls {a : List Act} (h : ∀ x ∈ a, Act.Begins x) : reportsRead a = [] := by
  induction a with
  | nil => rfl
  | cons x a ih =>
    cases x with
    | call i => exact ih fun y hy => h y (.tail _ hy)
    | read i x r => exact absurd (h _ (.head _)) id

theorem since_read {as : List Act} {rs : List Report} (h : SinceCall as rs) (i : Nat) (r : Report) (o : Option (Except Err Bytes)) :
    SinceCall (as ++ [.read i (.ok r) o]) (rs ++ [r]) := by
  cases h with
  | all h =>
    have := SinceCall.all (as := as ++ [.read i (.ok r) o]) (by
      intro a ha
      rcases List.mem_append.1 ha with ha | ha
      · exact h a ha
      · rw [List.mem_singleton.1 ha]; exact id)
    rwa [reportsRead_append] at this
  | @call as bs j h =>
    have := SinceCall.call (as := as) (bs := bs ++ [.read i (.ok r) o]) (j := j) (by
      intro a ha
      rcases List.mem_append.1 ha with ha | ha
      · exact h a ha
      · rw [List.mem_singleton.1 ha]; exact id)
    rw [reportsRead_append] at this
    rw [List.append_assoc, List.cons_append]
    exact this

theorem since_again (as : List Act) (i : Nat) : SinceCall (as ++ [.call i]) [] :=
  .call (bs := []) (by simp)

theorem head_append {as : List Act} (h : ∀ a ∈ as.head?, ¬ Act.Begins a) (hn : as ≠ []) (bs : List Act) :
    ∀ a ∈ (as ++ bs).head?, ¬ Act.Begins a := by
  cases as with
  | nil => exact absurd rfl hn
  | cons x as => exact h

/-- The reports of a frame: all data counts, and each has the link control of its place. -/
def Proper (defs : List ReportDef) (rs : List Report) : Prop :=
  (∀ r ∈ rs, Accepted defs r r.data) ∧ LinkSeq (rs.map (·.linkControl))

theorem link_at {rs pre post : List Report} {r : Report} (h : LinkSeq (rs.map (·.linkControl))) (e : rs = pre ++ r :: post) :
    r.linkControl = if post = [] then (if pre = [] then 0x00 else 0x01) else if pre = [] then 0x02 else 0x03 := by
  subst e
  simp only [List.map_append, List.map_cons] at h
  generalize hp : pre.map (·.linkControl) = p at h
  generalize hq : post.map (·.linkControl) = q at h
  have e1 : pre = [] ↔ p = [] := by rw [← hp, List.map_eq_nil_iff]
  have e2 : post = [] ↔ q = [] := by rw [← hq, List.map_eq_nil_iff]
  simp only [e1, e2]
  generalize r.linkControl = x at h
  generalize hl : p ++ x :: q = l at h
  cases h with
  | single =>
    cases p with
    | nil => simp at hl; simp [hl]
    | cons y p => simp at hl
  | several k =>
    cases p with
    | nil =>
      simp only [List.nil_append, List.cons.injEq] at hl
      rw [hl.2, hl.1]
      simp
    | cons y p =>
      simp only [List.cons_append, List.cons.injEq] at hl
      rw [if_neg (List.cons_ne_nil y p), if_neg (List.cons_ne_nil y p)]
      have hl := hl.2
      by_cases hq : q = []
      · subst hq
        rw [if_pos rfl]
        exact (List.cons.inj (List.append_inj_right' hl rfl)).1
      · rw [if_neg hq]
        obtain ⟨q', z, rfl⟩ : ∃ q' z, q = q' ++ [z] := ⟨q.dropLast, q.getLast hq, (List.dropLast_concat_getLast hq).symm⟩
        rw [← List.cons_append, ← List.append_assoc] at hl
        have := List.append_inj_left' hl rfl
        exact List.eq_of_mem_replicate (this ▸ by simp : x ∈ List.replicate k 0x03)

/-- `AfterFrames`, with what the buffer holds. -/
inductive RestB : List (List Report) → List Act → List Report → Bytes → Prop
  | idle {todo : List (List Report)} {idle : List Act} {b : Bytes} : (∀ a ∈ idle, Act.Begins a) → RestB todo idle todo.flatten b
  | part {rs more : List Report} {todo : List (List Report)} {idle during : List Act} {since : List Report} : (∀ a ∈ idle, Act.Begins a) →
      (∀ a ∈ during, Act.GoesOn a) → (∀ a ∈ during.head?, ¬ Act.Begins a) → rs = reportsRead during ++ more → more ≠ [] →
      during ≠ [] → reportsRead during ≠ [] → SinceCall during since →
      RestB (rs :: todo) (idle ++ during) (more ++ todo.flatten) (dataOf since)
  | over {after : List Act} {b : Bytes} : (∀ a ∈ after, Act.Begins a ∨ ∃ i, a = .read i (.error .eof) (some (.error .eof))) →
      RestB [] after [] b

theorem RestB.rest {todo : List (List Report)} {rest : List Act} {unread : List Report} {b : Bytes} (h : RestB todo rest unread b) :
    AfterFrames todo rest unread := by
  cases h with
  | idle h => exact .idle h
  | part h1 h2 h3 h4 h5 _ _ _ => exact .part h1 h2 h3 h4 h5
  | over h => exact .over h

def ReadersOk (all : List (List Report)) (s : Readers) : Prop :=
  s.crashed = false ∧ ∃ done todo fs as rest unread, all = done ++ todo ∧ s.acts = as ++ rest ∧ FramesTaken done fs as ∧
    s.input = unread.map .ok ∧ RestB todo rest unread s.buf.data

theorem dataOf_snoc (rs : List Report) (r : Report) : dataOf (rs ++ [r]) = dataOf rs ++ r.data := by simp [dataOf]

theorem readers_step (grow : Growth) {defs : List ReportDef} {all : List (List Report)} (hp : ∀ rs ∈ all, Proper defs rs) {s : Readers}
    (h : ReadersOk all s) (i : Nat) : ReadersOk all (s.step grow defs i) := by
  obtain ⟨hc, done, todo, fs, as, rest, unread, e1, e2, e3, e4, e5⟩ := h
  rw [Readers.step, hc]
  simp only [Bool.false_eq_true, if_false]
  cases hi : s.inCall[i]? with
  | none => exact ⟨hc, done, todo, fs, as, rest, unread, e1, e2, e3, e4, e5⟩
  | some c =>
    cases c with
    | false =>
      refine ⟨rfl, done, todo, fs, as, rest ++ [.call i], unread, e1, by simp [e2], e3, e4, ?_⟩
      have hb : ∀ {l : List Act}, (∀ a ∈ l, Act.Begins a) → ∀ a ∈ l ++ [.call i], Act.Begins a := by
        intro l hl a ha
        rcases List.mem_append.1 ha with ha | ha
        · exact hl a ha
        · rw [List.mem_singleton.1 ha]; trivial
      generalize s.buf.data = b at e5
      cases e5 with
      | idle h => exact .idle (hb h)
      | @part rs more todo idle during since h1 h2 h3 h4 h5 h6 h7 h8 =>
        rw [List.append_assoc]
        have := RestB.part (rs := rs) (more := more) (todo := todo) (idle := idle) (during := during ++ [.call i]) (since := []) h1
          (by
            intro a ha
            rcases List.mem_append.1 ha with ha | ha
            · exact h2 a ha
            · rw [List.mem_singleton.1 ha]; trivial)
          (head_append h3 h6 _) (by simpa [reportsRead_append, reportsRead] using h4) h5 (by simp)
          (by simpa [reportsRead_append, reportsRead] using h7) (since_again _ _)
        simpa [dataOf] using this
      | over h =>
        refine .over fun a ha => ?_
        rcases List.mem_append.1 ha with ha | ha
        · exact h a ha
        · rw [List.mem_singleton.1 ha]; exact .inl trivial
    | true =>
      cases unread with
      | nil =>
        simp only [List.map_nil] at e4
        simp only [e4]
        have hover : todo = [] ∧ ∀ a ∈ rest, Act.Begins a ∨ ∃ i, a = .read i (.error .eof) (some (.error .eof)) := by
          generalize hu : ([] : List Report) = u at e5
          generalize hb : s.buf.data = b at e5
          cases e5 with
          | idle h =>
            refine ⟨?_, fun a ha => .inl (h a ha)⟩
            cases todo with
            | nil => rfl
            | cons rs todo =>
              simp only [List.flatten_cons] at hu
              have hrs : rs = [] := (List.append_eq_nil_iff.1 hu.symm).1
              have := (hp rs (by rw [e1]; simp)).2
              rw [hrs] at this
              generalize hm : List.map (·.linkControl) ([] : List Report) = m at this
              cases this <;> simp at hm
          | part h1 h2 h3 h4 h5 => exact absurd (List.append_eq_nil_iff.1 hu.symm).1 h5
          | over h => exact ⟨rfl, h⟩
        obtain ⟨rfl, hr⟩ := hover
        refine ⟨rfl, done, [], fs, as, rest ++ [.read i (.error .eof) (some (.error .eof))], [], e1, by simp [e2], e3, by simp, .over ?_⟩
        intro a ha
        rcases List.mem_append.1 ha with ha | ha
        · exact hr a ha
        · exact .inr ⟨i, List.mem_singleton.1 ha⟩
      | cons r unread =>
        simp only [List.map_cons] at e4
        simp only [e4]
        -- the frame the report belongs to
        obtain ⟨rs, todo', idle, during, more, t1, t2, t3, t4, t5, t6, t7, t8, t9⟩ : ∃ rs todo' idle during more, todo = rs :: todo' ∧
            rest = idle ++ during ∧ (∀ a ∈ idle, Act.Begins a) ∧ (∀ a ∈ during, Act.GoesOn a) ∧
            (∀ a ∈ during.head?, ¬ Act.Begins a) ∧ rs = reportsRead during ++ r :: more ∧ unread = more ++ todo'.flatten ∧
            (during = [] ↔ reportsRead during = []) ∧
            (during = [] ∨ ∃ since, SinceCall during since ∧ s.buf.data = dataOf since) := by
          generalize hu : r :: unread = u at e5
          generalize hb : s.buf.data = b at e5
          cases e5 with
          | idle h =>
            cases todo with
            | nil => simp at hu
            | cons rs todo =>
              cases rs with
              | nil =>
                have := (hp [] (by rw [e1]; simp)).2
                generalize hm : List.map (·.linkControl) ([] : List Report) = m at this
                cases this <;> simp at hm
              | cons r' more =>
                simp only [List.flatten_cons, List.cons_append, List.cons.injEq] at hu
                exact ⟨_, todo, rest, [], more, rfl, by simp, h, by simp, by simp, by simp [reportsRead, hu.1], hu.2, by simp [reportsRead],
                  .inl rfl⟩
          | @part rs more todo idle during since h1 h2 h3 h4 h5 h6 h7 h8 =>
            cases more with
            | nil => exact absurd rfl h5
            | cons r' more =>
              simp only [List.cons_append, List.cons.injEq] at hu
              exact ⟨rs, todo, idle, during, more, rfl, rfl, h1, h2, h3, by rw [hu.1]; exact h4, hu.2, by simp [h6, h7], .inr ⟨since, h8, rfl⟩⟩
          | over h => simp at hu
        subst t1 t2
        have hpr := hp rs (by rw [e1]; simp)
        have hacc : Accepted defs r r.data := hpr.1 r (by rw [t6]; simp)
        have hlc := link_at hpr.2 t6
        -- what is in the buffer after the report
        obtain ⟨since, s1, s2⟩ : ∃ since, (∀ o, SinceCall (during ++ [.read i (.ok r) o]) since) ∧
            (if during = [] then [] else s.buf.data) ++ r.data = dataOf since := by
          rcases t9 with h | ⟨since, h1, h2⟩
          · exact ⟨[] ++ [r], fun o => since_read (by rw [h]; exact .all (by simp)) i r o, by simp [h, dataOf]⟩
          · by_cases hd : during = []
            · exact ⟨[] ++ [r], fun o => since_read (by rw [hd]; exact .all (by simp)) i r o, by simp [hd, dataOf]⟩
            · exact ⟨since ++ [r], fun o => since_read h1 i r o, by rw [dataOf_snoc, if_neg hd, h2]⟩
        have hfirst : ∀ o, ∀ a ∈ (during ++ [Act.read i (.ok r) o]).head?, ¬ Act.Begins a := by
          intro o
          by_cases hd : during = []
          · subst hd; simp [Act.Begins]
          · exact head_append t5 hd _
        rw [round_accepted grow hacc]
        by_cases hm : more = []
        · -- the last report
          obtain ⟨buf', hb', hround⟩ : ∃ buf' : Slice, buf'.data = dataOf since ∧
              (if r.linkControl = 0x00 then Out.ret (Progress.returned (s.buf.reset.write grow r.data) (.ok (s.buf.reset.write grow r.data)))
              else if r.linkControl = 0x02 then .ret (.looping (s.buf.reset.write grow r.data))
              else if r.linkControl = 0x03 then .ret (.looping (s.buf.write grow r.data))
              else if r.linkControl = 0x01 then .ret (.returned (s.buf.write grow r.data) (.ok (s.buf.write grow r.data)))
              else .ret (.looping s.buf)) = .ret (.returned buf' (.ok buf')) := by
            rw [if_pos hm] at hlc
            by_cases hd : during = []
            · rw [if_pos (t8.1 hd)] at hlc
              exact ⟨s.buf.reset.write grow r.data, by simpa [hd] using s2, by rw [if_pos hlc]⟩
            · rw [if_neg (fun h => hd (t8.2 h))] at hlc
              refine ⟨s.buf.write grow r.data, by simpa [hd] using s2, ?_⟩
              rw [if_neg (by rw [hlc]; decide), if_neg (by rw [hlc]; decide), if_neg (by rw [hlc]; decide), if_pos hlc]
          rw [hround]
          refine ⟨rfl, done ++ [rs], todo', fs ++ [(i, dataOf since)],
            as ++ (idle ++ (during ++ [.read i (.ok r) (some (.ok (dataOf since)))])), [], unread, by simp [e1], ?_,
            .snoc e3 t3 ⟨?_, hfirst _, ⟨during, r, rfl, t4⟩, since, s1 _, rfl⟩, by simp, ?_⟩
          · simp [e2, hb', Except.map]
          · rw [reportsRead_append, t6, hm]; rfl
          · rw [t7, hm]
            exact RestB.idle (by simp)
        · -- more to come
          obtain ⟨buf', hb', hround⟩ : ∃ buf' : Slice, buf'.data = dataOf since ∧
              (if r.linkControl = 0x00 then Out.ret (Progress.returned (s.buf.reset.write grow r.data) (.ok (s.buf.reset.write grow r.data)))
              else if r.linkControl = 0x02 then .ret (.looping (s.buf.reset.write grow r.data))
              else if r.linkControl = 0x03 then .ret (.looping (s.buf.write grow r.data))
              else if r.linkControl = 0x01 then .ret (.returned (s.buf.write grow r.data) (.ok (s.buf.write grow r.data)))
              else .ret (.looping s.buf)) = .ret (.looping buf') := by
            rw [if_neg hm] at hlc
            by_cases hd : during = []
            · rw [if_pos (t8.1 hd)] at hlc
              exact ⟨s.buf.reset.write grow r.data, by simpa [hd] using s2, by rw [if_neg (by rw [hlc]; decide), if_pos hlc]⟩
            · rw [if_neg (fun h => hd (t8.2 h))] at hlc
              refine ⟨s.buf.write grow r.data, by simpa [hd] using s2, ?_⟩
              rw [if_neg (by rw [hlc]; decide), if_neg (by rw [hlc]; decide), if_pos hlc]
          rw [hround]
          refine ⟨rfl, done, rs :: todo', fs, as, idle ++ (during ++ [.read i (.ok r) none]), unread, e1, by simp [e2], e3, by simp, ?_⟩
          rw [t7]
          simp only [hb']
          exact .part t3 (by
            intro a ha
            rcases List.mem_append.1 ha with ha | ha
            · exact t4 a ha
            · rw [List.mem_singleton.1 ha]; exact ⟨⟨r, rfl⟩, rfl⟩) (hfirst _) (by rw [reportsRead_append, t6]; simp [reportsRead]) hm (by simp)
            (by simp [reportsRead_append, reportsRead]) (s1 _)

theorem readers_run (grow : Growth) {defs : List ReportDef} {all : List (List Report)} (hp : ∀ rs ∈ all, Proper defs rs)
    (schedule : List Nat) {s : Readers} (h : ReadersOk all s) : ReadersOk all (s.run grow defs schedule) := by
  induction schedule generalizing s with
  | nil => exact h
  | cons i schedule ih => exact ih (readers_step grow hp h i)

theorem written_proper {defs : List ReportDef} (hg : GoodTable defs) {frame : Bytes} (hf : frame ≠ []) {rs : List Report}
    (hw : Written defs frame rs) : Proper defs rs :=
  ⟨(written_reports hg hf hw).1, (written_is_chunks hg hf hw).linkSeq⟩

theorem readers_start {n : Nat} (all : List (List Report)) : ReadersOk all (Readers.start n (all.flatten.map .ok)) :=
  ⟨rfl, [], all, [], [], [], all.flatten, rfl, rfl, .nil, rfl, .idle (by simp)⟩

/-- C126. Frames have been sent, and any number of goroutines read them, taking turns in any order: the frames are read one after the
other, each by the goroutine that reads its last report, which gets the data of those of its reports that were read since the last call
of `ReadFrame` began, whoever called; nobody gets anything else but `io.EOF` after the last frame, and no goroutine panics. -/
theorem C126_frames (grow : Growth) (defs : List ReportDef) (hg : GoodTable defs) (sent : List (Bytes × List Report))
    (h : ∀ p ∈ sent, p.1 ≠ [] ∧ Written defs p.1 p.2) (n : Nat) (schedule : List Nat) :
    ((Readers.start n (sent.flatMap fun p => p.2.map .ok)).run grow defs schedule).crashed = false ∧
    ∃ done todo fs as rest unread, sent = done ++ todo ∧
      ((Readers.start n (sent.flatMap fun p => p.2.map .ok)).run grow defs schedule).acts = as ++ rest ∧
      FramesTaken (done.map (·.2)) fs as ∧ AfterFrames (todo.map (·.2)) rest unread ∧
      ((Readers.start n (sent.flatMap fun p => p.2.map .ok)).run grow defs schedule).input = unread.map .ok := by
  have e : (sent.flatMap fun p => p.2.map .ok : List (Except Err Report)) = (sent.map (·.2)).flatten.map .ok := by
    rw [List.map_flatten, List.flatMap_def, List.map_map]; rfl
  rw [e]
  obtain ⟨h1, done, todo, fs, as, rest, unread, e1, e2, e3, e4, e5⟩ := readers_run grow (defs := defs) (all := sent.map (·.2)) (by
    intro rs hrs
    obtain ⟨p, hp, rfl⟩ := List.mem_map.1 hrs
    exact written_proper hg (h p hp).1 (h p hp).2) schedule (readers_start (n := n) _)
  obtain ⟨d, t, rfl, rfl, rfl⟩ := List.map_eq_append_iff.1 e1
  exact ⟨h1, d, t, fs, as, rest, unread, rfl, e2, e3, e5.rest, e4⟩

/-- Two frames, three goroutines. -/
example (r1 r2 : List Report) (h1 : Written defaultReportDefs [0x55, 0x02, 0x00, 0x07, 0xF7] r1)
    (h2 : Written defaultReportDefs [0x55, 0x02, 0x00, 0x11, 0xED] r2) (schedule : List Nat) :
    ((Readers.start 3 (r1.map .ok ++ r2.map .ok)).run (fun _ n => n) defaultReportDefs schedule).crashed = false := by
  simpa using (C126_frames (fun _ n => n) defaultReportDefs goodTable_default
    [([0x55, 0x02, 0x00, 0x07, 0xF7], r1), ([0x55, 0x02, 0x00, 0x11, 0xED], r2)] (by simp [h1, h2]) 3 schedule).1

theorem since_short {as : List Act} {since : List Report} (h : SinceCall as since) (hf : ∀ a ∈ as.head?, ¬ Act.Begins a)
    (hd : ∀ r ∈ reportsRead as, r.data ≠ []) (ho : ∀ a ∈ as, ∀ i e o, a ≠ .read i (.error e) o) :
    dataOf since = dataOf (reportsRead as) ↔ ∀ a ∈ as, ¬ Act.Begins a := by
  cases h with
  | all h => exact ⟨fun _ => h, fun _ => rfl⟩
  | @call as bs j h =>
    refine ⟨fun e => ?_, fun e => absurd trivial (e (.call j) (by simp))⟩
    exfalso
    cases as with
    | nil => exact hf (.call j) (by simp) trivial
    | cons x as =>
      cases x with
      | call k => exact hf (.call k) (by simp) trivial
      | read k x o =>
        cases x with
        | error e' => exact ho (.read k (.error e') o) (by simp) k e' o rfl
        | ok r =>
          have h1 : r.data ≠ [] := hd r (by simp [reportsRead])
          have h2 : reportsRead (.read k (.ok r) o :: as ++ .call j :: bs) = r :: (reportsRead as ++ reportsRead bs) := by
            rw [reportsRead_append]; simp [reportsRead]
          rw [h2] at e
          have h3 := congrArg List.length e
          have h4 := List.length_pos_iff.2 h1
          simp only [dataOf, List.map_cons, List.map_append, List.flatten_cons, List.flatten_append, List.length_append] at h3
          omega

/-- C126, when a frame arrives whole: just if no call began between its first and its last report. Then it is the frame that was
written, followed by zeros. -/
theorem C126_whole_iff (defs : List ReportDef) (hg : GoodTable defs) (frame : Bytes) (hf : frame ≠ []) (rs : List Report)
    (hw : Written defs frame rs) (i : Nat) (f : Bytes) (during : List Act) (h : FrameTaken rs i f during) :
    (f = dataOf rs ↔ ∀ a ∈ during, ¬ Act.Begins a) ∧ ∃ pad, dataOf rs = frame ++ pad ∧ Zeros pad := by
  refine ⟨?_, ?_⟩
  · obtain ⟨since, h1, h2⟩ := h.data
    obtain ⟨init, r, h3, h4⟩ := h.last
    rw [h2, ← h.reads]
    refine since_short h1 h.first (fun r hr => written_data_ne hg hf hw r (h.reads ▸ hr)) fun a ha i e o hae => ?_
    subst hae
    rw [h3] at ha
    rcases List.mem_append.1 ha with ha | ha
    · obtain ⟨⟨q, hq⟩, -⟩ := h4 _ ha
      cases hq
    · cases List.mem_singleton.1 ha
  · obtain ⟨pad, h1, h2, -⟩ := ((written_is_chunks hg hf hw).data hg).2
    exact ⟨pad, h1, h2⟩

theorem returnedBy_append (a b : List Act) : returnedBy (a ++ b) = returnedBy a ++ returnedBy b := by
  induction a with
  | nil => rfl
  | cons x a ih =>
    cases x with
    | call i => simpa [returnedBy] using ih
    | read i x r => cases r <;> simp [returnedBy, ih]

theorem returnedBy_goes {a : List Act} (h : ∀ x ∈ a, Act.GoesOn x) : returnedBy a = [] := by
  induction a with
  | nil => rfl
  | cons x a ih =>
    have ih := ih fun y hy => h y (.tail _ hy)
    cases x with
    | call i => exact ih
    | read i x r =>
      obtain ⟨-, rfl⟩ := h _ (.head _)
      exact ih

theorem goes_of_begins {x : Act} (h : Act.Begins x) : Act.GoesOn x := by
  cases x with
  | call i => trivial
  | read i x r => exact absurd h id

theorem eachPadded_snoc {fs gs : List Bytes} (h : EachPadded fs gs) (f pad : Bytes) (hz : Zeros pad) :
    EachPadded (fs ++ [f]) (gs ++ [f ++ pad]) := by
  induction h with
  | nil => exact .cons hz .nil
  | cons hz' _ ih => exact .cons hz' ih

/-- Frames taken, none of them interrupted. -/
theorem taken_whole {defs : List ReportDef} (hg : GoodTable defs) {done : List (List Report)} {fs : List (Nat × Bytes)} {as : List Act}
    (h : FramesTaken done fs as) : ∀ (sent : List (Bytes × List Report)), sent.map (·.2) = done →
    (∀ p ∈ sent, p.1 ≠ [] ∧ Written defs p.1 p.2) →
    (∀ pre during post rs i f, as = pre ++ (during ++ post) → rs ∈ done → FrameTaken rs i f during → ∀ a ∈ during, ¬ Act.Begins a) →
    EachPadded (sent.map (·.1)) (fs.map (·.2)) ∧ returnedBy as = fs.map fun p => (p.1, .ok p.2) := by
  induction h with
  | nil =>
    intro sent e _ _
    rw [List.map_eq_nil_iff.1 e]
    exact ⟨.nil, rfl⟩
  | @snoc done fs as idle during rs i f h1 h2 h3 ih =>
    intro sent e hs hw
    obtain ⟨sent, q, rfl, rfl, e2⟩ := List.map_eq_append_iff.1 e
    obtain ⟨p, rfl, rfl⟩ : ∃ p, q = [p] ∧ p.2 = rs := by
      obtain ⟨p, q', rfl, e3, e4⟩ := List.map_eq_cons_iff.1 e2
      rw [List.map_eq_nil_iff.1 e4]
      exact ⟨p, rfl, e3⟩
    obtain ⟨k1, k2⟩ := ih sent rfl (fun p hp => hs p (by simp [hp])) fun pre d post rs i f e hr =>
      hw pre d (post ++ (idle ++ during)) rs i f (by rw [e]; simp) (by simp [hr])
    have hp := hs p (by simp)
    obtain ⟨w1, pad, w2, w3⟩ := C126_whole_iff defs hg p.1 hp.1 p.2 hp.2 i f during h3
    have hf : f = p.1 ++ pad := by
      rw [← w2]
      exact w1.2 (hw (as ++ idle) during [] p.2 i f (by simp) (by simp) h3)
    refine ⟨?_, ?_⟩
    · rw [List.map_append, List.map_append, hf]
      exact eachPadded_snoc k1 _ _ w3
    · obtain ⟨init, r, e3, e4⟩ := h3.last
      rw [returnedBy_append, k2, returnedBy_append, returnedBy_goes fun x hx => goes_of_begins (h2 x hx), e3, returnedBy_append,
        returnedBy_goes e4]
      simp [returnedBy]

theorem returnedBy_rest {todo : List (List Report)} {rest : List Act} {unread : List Report} (h : AfterFrames todo rest unread) :
    ∃ k, (returnedBy rest).map (·.2) = List.replicate k (.error .eof) ∧ (0 < k → todo = []) := by
  cases h with
  | idle h => exact ⟨0, by rw [returnedBy_goes fun x hx => goes_of_begins (h x hx)]; rfl, by simp⟩
  | @part rs more todo idle during h1 h2 _ _ _ =>
    refine ⟨0, ?_, by simp⟩
    rw [returnedBy_append, returnedBy_goes fun x hx => goes_of_begins (h1 x hx), returnedBy_goes h2]
    rfl
  | over h =>
    refine ⟨(returnedBy rest).length, ?_, fun _ => rfl⟩
    induction rest with
    | nil => rfl
    | cons x rest ih =>
      have ih := ih fun y hy => h y (.tail _ hy)
      rcases h x (.head _) with hx | ⟨i, rfl⟩
      · cases x with
        | call i => exact ih
        | read i x r => exact absurd hx id
      · simp only [returnedBy, List.map_cons, ih, List.length_cons, List.replicate_succ]

theorem in_order (grow : Growth) {defs : List ReportDef} (hg : GoodTable defs) (sent : List (Bytes × List Report))
    (h : ∀ p ∈ sent, p.1 ≠ [] ∧ Written defs p.1 p.2) (n : Nat) (schedule : List Nat)
    (hw : ∀ pre during post rs i f,
      ((Readers.start n (sent.flatMap fun p => p.2.map .ok)).run grow defs schedule).acts = pre ++ (during ++ post) →
      rs ∈ sent.map (·.2) → FrameTaken rs i f during → ∀ a ∈ during, ¬ Act.Begins a) :
    InOrder (sent.map (·.1)) (returnedBy ((Readers.start n (sent.flatMap fun p => p.2.map .ok)).run grow defs schedule).acts) := by
  obtain ⟨-, done, todo, fs, as, rest, unread, e1, e2, e3, e4, -⟩ := C126_frames grow defs hg sent h n schedule
  generalize (Readers.start n (sent.flatMap fun p => p.2.map .ok)).run grow defs schedule = s at *
  subst e1
  obtain ⟨k1, k2⟩ := taken_whole hg e3 done rfl (fun p hp => h p (by simp [hp])) fun pre during post rs i f e hr =>
    hw pre during (post ++ rest) rs i f (by rw [e2, e]; simp) (by
      rw [List.map_append]; exact List.mem_append_left _ hr)
  obtain ⟨k, k3, k4⟩ := returnedBy_rest e4
  refine ⟨done.map (·.1), todo.map (·.1), fs.map (·.2), k, by simp, k1, ?_, fun hk => ?_⟩
  · rw [e2, returnedBy_append, k2, List.map_append, k3]
    simp
  · rw [List.map_eq_nil_iff.1 (k4 hk)]; rfl

/-- C126, frames that fit into one report each: however the goroutines take turns, the calls return the frames, each once and in the order
in which they were sent, each with zeros after it. -/
theorem C126_single (grow : Growth) (defs : List ReportDef) (hg : GoodTable defs) (sent : List (Bytes × List Report))
    (h : ∀ p ∈ sent, p.1 ≠ [] ∧ Written defs p.1 p.2) (h1 : ∀ p ∈ sent, p.2.length = 1) (n : Nat) (schedule : List Nat) :
    InOrder (sent.map (·.1)) (returnedBy ((Readers.start n (sent.flatMap fun p => p.2.map .ok)).run grow defs schedule).acts) := by
  refine in_order grow hg sent h n schedule fun pre during post rs i f _ hr ht => ?_
  obtain ⟨p, hp, rfl⟩ := List.mem_map.1 hr
  have hl := h1 p hp
  obtain ⟨init, r, e1, e2⟩ := ht.last
  rw [← ht.reads, e1, reportsRead_append] at hl
  have hf := ht.first
  cases init with
  | nil => rw [e1]; simp [Act.Begins]
  | cons x init =>
    rw [e1] at hf
    cases x with
    | call j => exact absurd trivial (hf (.call j) (by simp))
    | read j x o =>
      obtain ⟨⟨q, rfl⟩, rfl⟩ := e2 _ (.head _)
      simp [reportsRead] at hl

/-- C126, with a lock held during each call: the calls return the frames, each once and in the order in which they were sent. -/
theorem C126_lock (grow : Growth) (defs : List ReportDef) (hg : GoodTable defs) (sent : List (Bytes × List Report))
    (h : ∀ p ∈ sent, p.1 ≠ [] ∧ Written defs p.1 p.2) (n : Nat) (schedule : List Nat)
    (hl : OneAtATime ((Readers.start n (sent.flatMap fun p => p.2.map .ok)).run grow defs schedule).acts) :
    InOrder (sent.map (·.1)) (returnedBy ((Readers.start n (sent.flatMap fun p => p.2.map .ok)).run grow defs schedule).acts) := by
  refine in_order grow hg sent h n schedule fun pre during post rs i f e _ ht a ha hb => ?_
  cases a with
  | read j x o => exact hb
  | call j =>
    obtain ⟨init, r, e1, e2⟩ := ht.last
    have hi : Act.call j ∈ init := by
      rw [e1] at ha
      rcases List.mem_append.1 ha with ha | ha
      · exact ha
      · cases List.mem_singleton.1 ha
    obtain ⟨a1, a2, rfl⟩ := List.append_of_mem hi
    have hf := ht.first
    rw [e1] at hf
    rcases List.eq_nil_or_concat a1 with rfl | ⟨a1, y, rfl⟩
    · exact hf (.call j) (by simp) trivial
    · have hy := e2 y (by simp)
      have := hl (pre ++ a1) (a2 ++ [.read i (.ok r) (some (.ok f))] ++ post) y j (by rw [e, e1]; simp)
      cases y with
      | call k => exact this
      | read k x o =>
        obtain ⟨-, rfl⟩ := hy
        simp [Act.Returns] at this

theorem rest_empty {defs : List ReportDef} {todo : List (List Report)} (hp : ∀ rs ∈ todo, Proper defs rs) {rest : List Act}
    (h : AfterFrames todo rest []) : todo = [] := by
  generalize hu : ([] : List Report) = u at h
  cases h with
  | idle h =>
    cases todo with
    | nil => rfl
    | cons rs todo =>
      simp only [List.flatten_cons] at hu
      have hrs : rs = [] := (List.append_eq_nil_iff.1 hu.symm).1
      have := (hp rs (.head _)).2
      rw [hrs] at this
      generalize hm : List.map (·.linkControl) ([] : List Report) = m at this
      cases this <;> simp at hm
  | part _ _ _ _ h5 => exact absurd (List.append_eq_nil_iff.1 hu.symm).1 h5
  | over h => rfl

/-- Each step reads a report or begins a call. -/
theorem readers_measure (grow : Growth) {defs : List ReportDef} {s : Readers} (hc : (s.step grow defs i).crashed = false) (hi : i < s.inCall.length)
    (hn : s.input ≠ []) :
    (s.step grow defs i).inCall.length = s.inCall.length ∧
      2 * (s.step grow defs i).input.length + (s.step grow defs i).inCall.count false < 2 * s.input.length + s.inCall.count false := by
  rw [Readers.step] at hc ⊢
  by_cases hs : s.crashed = true
  · rw [if_pos hs] at hc
    rw [hc] at hs
    cases hs
  rw [if_neg hs] at hc ⊢
  rw [List.getElem?_eq_getElem hi] at hc ⊢
  cases hb : s.inCall[i] with
  | false =>
    have := List.count_pos_iff.2 (hb ▸ List.getElem_mem hi : false ∈ s.inCall)
    simp only [List.length_set, true_and]
    rw [List.count_set hi, hb]
    simp
    omega
  | true =>
    simp only [hb] at hc
    cases hin : s.input with
    | nil => exact absurd hin hn
    | cons x rs =>
      simp only [hin] at hc
      cases x with
      | error e =>
        simp only [List.length_set, true_and, List.length_cons]
        rw [List.count_set hi, hb]
        simp
        omega
      | ok r =>
        simp only at hc ⊢
        cases hd : decodeRound grow defs r s.buf with
        | panic => rw [hd] at hc; simp at hc
        | ret p =>
          cases p with
          | looping b => simp
          | returned b x =>
            simp only [List.length_set, true_and, List.length_cons]
            rw [List.count_set hi, hb]
            simp
            omega

theorem readers_drained (grow : Growth) {defs : List ReportDef} {all : List (List Report)} (hp : ∀ rs ∈ all, Proper defs rs)
    (schedule : List Nat) {s : Readers} (h : ReadersOk all s) (hv : ∀ i ∈ schedule, i < s.inCall.length)
    (hl : s.input = [] ∨ 2 * s.input.length + s.inCall.count false ≤ schedule.length) : (s.run grow defs schedule).input = [] := by
  induction schedule generalizing s with
  | nil =>
    rcases hl with hl | hl
    · exact hl
    · simp only [List.length_nil, Nat.le_zero_eq, Nat.add_eq_zero_iff] at hl
      exact List.length_eq_zero_iff.1 (show s.input.length = 0 by omega)
  | cons i schedule ih =>
    have hs := readers_step grow hp h i
    have hi := hv i (.head _)
    by_cases hn : s.input = []
    · have : (s.step grow defs i).input = [] ∧ (s.step grow defs i).inCall.length = s.inCall.length := by
        rw [Readers.step, h.1, hn]
        simp only [Bool.false_eq_true, if_false]
        rw [List.getElem?_eq_getElem hi]
        cases s.inCall[i] <;> simp
      exact ih hs (fun j hj => by rw [this.2]; exact hv j (.tail _ hj)) (.inl this.1)
    · obtain ⟨m1, m2⟩ := readers_measure grow hs.1 hi hn
      refine ih hs (fun j hj => by rw [m1]; exact hv j (.tail _ hj)) (.inr ?_)
      rcases hl with hl | hl
      · exact absurd hl hn
      · simp only [List.length_cons] at hl
        omega

/-- C126, no frame is left: once the goroutines have had two turns for every report and one more each, all frames have been read. -/
theorem C126_ends (grow : Growth) (defs : List ReportDef) (hg : GoodTable defs) (sent : List (Bytes × List Report))
    (h : ∀ p ∈ sent, p.1 ≠ [] ∧ Written defs p.1 p.2) (n : Nat) (schedule : List Nat) (hv : ∀ i ∈ schedule, i < n)
    (hl : 2 * (sent.map (·.2.length)).sum + n ≤ schedule.length) :
    ∃ fs as rest, ((Readers.start n (sent.flatMap fun p => p.2.map .ok)).run grow defs schedule).acts = as ++ rest ∧
      FramesTaken (sent.map (·.2)) fs as ∧
      (∀ a ∈ rest, Act.Begins a ∨ ∃ i, a = .read i (.error .eof) (some (.error .eof))) := by
  have hp : ∀ rs ∈ sent.map (·.2), Proper defs rs := by
    intro rs hrs
    obtain ⟨p, hp, rfl⟩ := List.mem_map.1 hrs
    exact written_proper hg (h p hp).1 (h p hp).2
  have e : (sent.flatMap fun p => p.2.map .ok : List (Except Err Report)) = (sent.map (·.2)).flatten.map .ok := by
    rw [List.map_flatten, List.flatMap_def, List.map_map]; rfl
  have hd := readers_drained grow hp schedule (readers_start (n := n) (sent.map (·.2))) (by simpa [Readers.start] using hv) (.inr (by
    simpa [Readers.start, List.length_flatten, Function.comp_def] using hl))
  obtain ⟨-, done, todo, fs, as, rest, unread, e1, e2, e3, e4, e5⟩ := C126_frames grow defs hg sent h n schedule
  rw [e] at e5 e2 ⊢
  rw [hd] at e5
  rw [List.map_eq_nil_iff.1 e5.symm] at e4
  have ht : todo = [] := List.map_eq_nil_iff.1 (rest_empty (fun rs hrs => hp rs (by rw [e1, List.map_append]; exact List.mem_append_right _ hrs)) e4)
  subst ht
  rw [List.append_nil] at e1
  refine ⟨fs, as, rest, e2, by rw [e1]; exact e3, ?_⟩
  cases e4 with
  | idle h => exact fun a ha => .inl (h a ha)
  | over h => exact h

theorem replicate_run (grow : Growth) (defs : List ReportDef) (s : Readers) (a b : Nat) :
    s.run grow defs (List.replicate (a + b) 0) = (s.run grow defs (List.replicate a 0)).run grow defs (List.replicate b 0) := by
  rw [Readers.run, Readers.run, Readers.run, ← List.foldl_append, List.replicate_append_replicate]

/-- The loop of `ReadFrame`, round by round. -/
theorem loop_round (grow : Growth) (defs : List ReportDef) (r : Report) (input : List (Except Err Report)) (buf : Slice) :
    readFrameLoop grow defs (.ok r :: input) buf =
      match decodeRound grow defs r buf with
      | .panic => .panic
      | .ret (.looping buf) => readFrameLoop grow defs input buf
      | .ret (.returned buf x) => .ret (input, buf, x) := by
    rw [readFrameLoop, decodeRound]
    cases find defs r.id.toNat with
    | none => rfl
    | some d =>
      by_cases h0 : d.maxPayload < 0
      · simp only [if_pos h0]
      · simp only [if_neg h0]
        by_cases l0 : r.linkControl = linkControlDone
        · simp only [if_pos l0]
        · simp only [if_neg l0]
          by_cases l1 : r.linkControl = linkControlMoreToFollow
          · simp only [if_pos l1]
          · simp only [if_neg l1]
            by_cases l2 : r.linkControl = linkControlContinue ||| linkControlMoreToFollow
            · simp only [if_pos l2]
            · simp only [if_neg l2]
              by_cases l3 : r.linkControl = linkControlContinue
              · simp only [if_pos l3]
              · simp only [if_neg l3]

theorem alone_loop (grow : Growth) {defs : List ReportDef} (input : List (Except Err Report)) {buf : Slice} {acts : List Act}
    {rs : List (Except Err Report)} {buf' : Slice} {x : Except Err Slice} (h : readFrameLoop grow defs input buf = .ret (rs, buf', x)) :
    ∃ k acts', Readers.run grow defs ⟨[true], buf, input, acts, false⟩ (List.replicate k 0) = ⟨[false], buf', rs, acts', false⟩ ∧
      returnedBy acts' = returnedBy acts ++ [(0, x.map (·.data))] := by
  have again : ∀ {s s' : Readers} {y}, s.step grow defs 0 = s' →
      (∃ k acts', s'.run grow defs (List.replicate k 0) = ⟨[false], buf', rs, acts', false⟩ ∧ returnedBy acts' = y) →
      ∃ k acts', s.run grow defs (List.replicate k 0) = ⟨[false], buf', rs, acts', false⟩ ∧ returnedBy acts' = y := by
    rintro s s' y rfl ⟨k, acts', h1, h2⟩
    exact ⟨k + 1, acts', by rw [List.replicate_succ]; exact h1, h2⟩
  induction input generalizing buf acts with
  | nil =>
    simp only [readFrameLoop, Out.ret.injEq, Prod.mk.injEq] at h
    obtain ⟨rfl, rfl, rfl⟩ := h
    exact ⟨1, _, rfl, by rw [returnedBy_append]; rfl⟩
  | cons y input ih =>
    cases y with
    | error e =>
      simp only [readFrameLoop, Out.ret.injEq, Prod.mk.injEq] at h
      obtain ⟨rfl, rfl, rfl⟩ := h
      exact ⟨1, _, rfl, by rw [returnedBy_append]; rfl⟩
    | ok r =>
      have hstep : Readers.step grow defs ⟨[true], buf, .ok r :: input, acts, false⟩ 0 =
          match decodeRound grow defs r buf with
          | .panic => ⟨[true], buf, .ok r :: input, acts, true⟩
          | .ret (.looping buf) => ⟨[true], buf, input, acts ++ [.read 0 (.ok r) none], false⟩
          | .ret (.returned buf x) => ⟨[false], buf, input, acts ++ [.read 0 (.ok r) (some (x.map (·.data)))], false⟩ := rfl
      rw [loop_round] at h
      cases hd : decodeRound grow defs r buf with
      | panic => rw [hd] at h; cases h
      | ret p =>
        rw [hd] at h hstep
        cases p with
        | looping b =>
          obtain ⟨k, acts', h1, h2⟩ := ih (acts := acts ++ [.read 0 (.ok r) none]) h
          exact again hstep ⟨k, acts', h1, by rw [h2, returnedBy_append]; simp [returnedBy]⟩
        | returned b y =>
          simp only [Out.ret.injEq, Prod.mk.injEq] at h
          obtain ⟨rfl, rfl, rfl⟩ := h
          exact again hstep ⟨0, _, rfl, by rw [returnedBy_append]; rfl⟩

/-- C126, one goroutine alone, whatever comes from the reader: its calls return what `ReadFrame` called again and again returns. -/
theorem C126_alone (grow : Growth) (defs : List ReportDef) (input : List (Except Err Report)) (m : Nat) (rs : List (Except Err Bytes))
    (h : readFrames grow defs m input ⟨[], []⟩ = .ret rs) :
    ∃ k, (returnedBy ((Readers.start 1 input).run grow defs (List.replicate k 0)).acts).map (·.2) = rs := by
  suffices ∀ (buf : Slice) (acts : List Act), readFrames grow defs m input buf = .ret rs →
      ∃ k, (returnedBy (Readers.run grow defs ⟨[false], buf, input, acts, false⟩ (List.replicate k 0)).acts).map (·.2) =
        (returnedBy acts).map (·.2) ++ rs from this ⟨[], []⟩ [] h
  clear h
  induction m generalizing input rs with
  | zero =>
    intro buf acts h
    simp only [readFrames, Out.ret.injEq] at h
    subst h
    exact ⟨0, by simp [Readers.run]⟩
  | succ m ih =>
    intro buf acts h
    rw [readFrames] at h
    cases hf : readFrame grow defs input buf with
    | panic => rw [hf] at h; simp at h
    | ret y =>
      obtain ⟨rest, buf', x⟩ := y
      rw [hf] at h
      simp only at h
      cases hr : readFrames grow defs m rest buf' with
      | panic => simp only [hr] at h; cases h
      | ret rs' =>
        simp only [hr, Out.bind_ret, Out.ret.injEq] at h
        obtain ⟨k1, acts', a1, a2⟩ := alone_loop grow input (acts := acts ++ [.call 0]) hf
        obtain ⟨k2, b⟩ := ih rest rs' buf' acts' hr
        refine ⟨1 + (k1 + k2), ?_⟩
        have e1 : Readers.run grow defs ⟨[false], buf, input, acts, false⟩ (List.replicate 1 0) =
            ⟨[true], buf.reset, input, acts ++ [.call 0], false⟩ := rfl
        rw [replicate_run, e1, replicate_run, a1, b, a2, returnedBy_append]
        simp [returnedBy, ← h]

theorem finish_frame (grow : Growth) {defs : List ReportDef} {rs : List Report} (hp : Proper defs rs) (pre more : List Report)
    (e : rs = pre ++ more) (h1 : pre ≠ []) (h2 : more ≠ []) (buf : Slice) (acts : List Act) (c : Bool) :
    returnedBy (Readers.run grow defs ⟨[c, true], buf, more.map .ok, acts, false⟩ (List.replicate more.length 1)).acts =
      returnedBy acts ++ [(1, .ok (buf.data ++ dataOf more))] := by
  induction more generalizing pre buf acts with
  | nil => exact absurd rfl h2
  | cons r more ih =>
    have hacc : Accepted defs r r.data := hp.1 r (by rw [e]; simp)
    have hlc := link_at hp.2 e
    rw [if_neg h1, if_neg h1] at hlc
    have hstep : Readers.step grow defs ⟨[c, true], buf, (r :: more).map .ok, acts, false⟩ 1 =
        match decodeRound grow defs r buf with
        | .panic => ⟨[c, true], buf, (r :: more).map .ok, acts, true⟩
        | .ret (.looping buf) => ⟨[c, true], buf, more.map .ok, acts ++ [.read 1 (.ok r) none], false⟩
        | .ret (.returned buf x) => ⟨[c, false], buf, more.map .ok, acts ++ [.read 1 (.ok r) (some (x.map (·.data)))], false⟩ := rfl
    rw [List.length_cons, List.replicate_succ]
    show returnedBy (Readers.run grow defs (Readers.step grow defs ⟨[c, true], buf, (r :: more).map .ok, acts, false⟩ 1) _).acts = _
    rw [hstep, round_accepted grow hacc]
    by_cases hm : more = []
    · subst hm
      rw [if_pos rfl] at hlc
      rw [if_neg (by rw [hlc]; decide), if_neg (by rw [hlc]; decide), if_neg (by rw [hlc]; decide), if_pos hlc]
      show returnedBy (acts ++ [.read 1 (.ok r) (some (.ok (buf.write grow r.data).data))]) = _
      rw [returnedBy_append]
      simp [returnedBy, dataOf]
    · rw [if_neg hm] at hlc
      rw [if_neg (by rw [hlc]; decide), if_neg (by rw [hlc]; decide), if_pos hlc]
      show returnedBy (Readers.run grow defs ⟨[c, true], buf.write grow r.data, more.map .ok, acts ++ [.read 1 (.ok r) none], false⟩ _).acts = _
      rw [ih (pre ++ [r]) (by rw [e]; simp) (by simp) hm, returnedBy_append]
      simp [returnedBy, dataOf]

/-- C126, what cannot be said of goroutines without a lock: every frame of more than one report may arrive without its beginning, and
nothing tells the goroutine that gets it. -/
theorem C126_truncated (grow : Growth) (defs : List ReportDef) (hg : GoodTable defs) (frame : Bytes) (hf : frame ≠ []) (r : Report)
    (rs : List Report) (hw : Written defs frame (r :: rs)) (h2 : rs ≠ []) :
    ∃ schedule, returnedBy ((Readers.start 2 ((r :: rs).map .ok)).run grow defs schedule).acts = [(1, .ok (dataOf rs))] := by
  have hp := written_proper hg hf hw
  have hlc := link_at hp.2 (pre := []) (r := r) (post := rs) rfl
  rw [if_neg h2, if_pos rfl] at hlc
  refine ⟨[0, 0, 1] ++ List.replicate rs.length 1, ?_⟩
  have hd := round_accepted grow (hp.1 r (.head _)) ⟨[], []⟩
  rw [if_neg (by rw [hlc]; decide), if_pos hlc] at hd
  have hrun : Readers.run grow defs (Readers.start 2 ((r :: rs).map .ok)) [0, 0, 1] =
      ⟨[true, true], (Slice.write grow ⟨[], []⟩ r.data).reset, rs.map .ok, [.call 0, .read 0 (.ok r) none, .call 1], false⟩ := by
    have h1 : Readers.run grow defs (Readers.start 2 ((r :: rs).map .ok)) [0, 0, 1] =
        ((match decodeRound grow defs r ⟨[], []⟩ with
          | .panic => ⟨[true, false], ⟨[], []⟩, (r :: rs).map .ok, [.call 0], true⟩
          | .ret (.looping buf) => ⟨[true, false], buf, rs.map .ok, [.call 0] ++ [.read 0 (.ok r) none], false⟩
          | .ret (.returned buf x) => ⟨[false, false], buf, rs.map .ok, [.call 0] ++ [.read 0 (.ok r) (some (x.map (·.data)))], false⟩ :
            Readers)).step grow defs 1 := rfl
    rw [h1, hd]
    rfl
  rw [Readers.run, List.foldl_append]
  show returnedBy (Readers.run grow defs (Readers.run grow defs (Readers.start 2 ((r :: rs).map .ok)) [0, 0, 1]) _).acts = _
  rw [hrun, finish_frame grow hp [r] rs rfl (by simp) h2]
  simp [returnedBy]

theorem twoReports : Written [⟨1, 3, .accIn⟩] [1, 2, 3] [⟨1, 2, [1, 2]⟩, ⟨1, 1, [3, 0]⟩] := ⟨4, rfl⟩

/-- Two goroutines and a frame of two reports, which one begins and the other ends while both are in a call: it arrives whole. -/
example (grow : Growth) : FrameTaken [⟨1, 2, [1, 2]⟩, ⟨1, 1, [3, 0]⟩] 1 [1, 2, 3, 0]
      [.read 0 (.ok ⟨1, 2, [1, 2]⟩) none, .read 1 (.ok ⟨1, 1, [3, 0]⟩) (some (.ok [1, 2, 3, 0]))] ∧
    returnedBy ((Readers.start 2 [.ok ⟨1, 2, [1, 2]⟩, .ok ⟨1, 1, [3, 0]⟩]).run (fun _ n => 2 * n) [⟨1, 3, .accIn⟩] [0, 1, 0, 1, 0, 1]).acts =
      [(1, .ok [1, 2, 3, 0]), (0, .error .eof)] :=
  ⟨⟨rfl, by simp [Act.Begins], ⟨[.read 0 (.ok ⟨1, 2, [1, 2]⟩) none], ⟨1, 1, [3, 0]⟩, rfl, by simp [Act.GoesOn]⟩,
    _, .all (by simp [Act.Begins]), rfl⟩, rfl⟩

/-- The same where the other calls in between: it gets the end of the frame only. -/
example : returnedBy ((Readers.start 2 [.ok ⟨1, 2, [1, 2]⟩, .ok ⟨1, 1, [3, 0]⟩]).run (fun _ n => 2 * n) [⟨1, 3, .accIn⟩] [0, 0, 1, 1]).acts =
    [(1, .ok [3, 0])] := rfl

/-- `C126_frames` and `C126_ends` for this frame. -/
example (grow : Growth) (schedule : List Nat) (hv : ∀ i ∈ schedule, i < 2) (hl : 6 ≤ schedule.length) :
    ∃ fs as rest, ((Readers.start 2 [.ok ⟨1, 2, [1, 2]⟩, .ok ⟨1, 1, [3, 0]⟩]).run grow [⟨1, 3, .accIn⟩] schedule).acts = as ++ rest ∧
      FramesTaken [[⟨1, 2, [1, 2]⟩, ⟨1, 1, [3, 0]⟩]] fs as ∧
      (∀ a ∈ rest, Act.Begins a ∨ ∃ i, a = .read i (.error .eof) (some (.error .eof))) :=
  C126_ends grow [⟨1, 3, .accIn⟩] ⟨by decide, by decide, by decide, by decide⟩ [([1, 2, 3], [⟨1, 2, [1, 2]⟩, ⟨1, 1, [3, 0]⟩])]
    (by simpa using twoReports) 2 schedule hv hl

/-- `C126_lock`: two goroutines that exclude each other read two frames. -/
example (grow : Growth) : InOrder [[1, 2, 3], [4]] (returnedBy ((Readers.start 2 [.ok ⟨1, 2, [1, 2]⟩, .ok ⟨1, 1, [3, 0]⟩, .ok ⟨1, 0, [4, 0]⟩]).run
      (fun _ n => 2 * n) [⟨1, 3, .accIn⟩] [1, 1, 1, 0, 0]).acts) :=
  C126_lock (fun _ n => 2 * n) [⟨1, 3, .accIn⟩] ⟨by decide, by decide, by decide, by decide⟩
    [([1, 2, 3], [⟨1, 2, [1, 2]⟩, ⟨1, 1, [3, 0]⟩]), ([4], [⟨1, 0, [4, 0]⟩])]
    (by
      intro p hp
      simp only [List.mem_cons, List.not_mem_nil, or_false] at hp
      rcases hp with rfl | rfl
      · exact ⟨by simp, twoReports⟩
      · exact ⟨by simp, 4, rfl⟩) 2 [1, 1, 1, 0, 0] (by
      intro a b x i h
      have hs : ((Readers.start 2 ([([1, 2, 3], [⟨1, 2, [1, 2]⟩, ⟨1, 1, [3, 0]⟩]), ([4], [⟨1, 0, [4, 0]⟩])].flatMap
          fun p : Bytes × List Report => p.2.map .ok)).run (fun _ n => 2 * n) [⟨1, 3, .accIn⟩] [1, 1, 1, 0, 0]).acts =
          [.call 1, .read 1 (.ok ⟨1, 2, [1, 2]⟩) none, .read 1 (.ok ⟨1, 1, [3, 0]⟩) (some (.ok [1, 2, 3, 0])), .call 0,
            .read 0 (.ok ⟨1, 0, [4, 0]⟩) (some (.ok [4, 0]))] := rfl
      rw [hs] at h
      match a, h with
      | [], h => simp at h
      | [_], h => simp at h
      | [_, _], h => simp only [List.cons_append, List.nil_append, List.cons.injEq] at h; rw [← h.2.2.1]; rfl
      | [_, _, _], h => simp at h
      | [_, _, _, _], h => simp at h
      | _ :: _ :: _ :: _ :: _ :: a, h => simp at h)

/-- `C126_truncated` for the frame of two reports. -/
example (grow : Growth) : ∃ schedule, returnedBy ((Readers.start 2 [.ok ⟨1, 2, [1, 2]⟩, .ok ⟨1, 1, [3, 0]⟩]).run grow [⟨1, 3, .accIn⟩]
    schedule).acts = [(1, .ok [3, 0])] :=
  C126_truncated grow [⟨1, 3, .accIn⟩] ⟨by decide, by decide, by decide, by decide⟩ [1, 2, 3] (by simp) _ _ twoReports (by simp)

/-- `C126_single`: three goroutines, two frames. -/
example (grow : Growth) (schedule : List Nat) : InOrder [[4], [5, 6]] (returnedBy ((Readers.start 3 [.ok ⟨1, 0, [4, 0]⟩,
    .ok ⟨1, 0, [5, 6]⟩]).run grow [⟨1, 3, .accIn⟩] schedule).acts) :=
  C126_single grow [⟨1, 3, .accIn⟩] ⟨by decide, by decide, by decide, by decide⟩ [([4], [⟨1, 0, [4, 0]⟩]), ([5, 6], [⟨1, 0, [5, 6]⟩])]
    (by
      intro p hp
      simp only [List.mem_cons, List.not_mem_nil, or_false] at hp
      rcases hp with rfl | rfl <;> exact ⟨by simp, 4, rfl⟩) (by simp) 3 schedule

/-- `C126_alone`, with a read that fails and a report that is not in the table. -/
example : ∃ k, (returnedBy ((Readers.start 1 [.ok ⟨1, 2, [1, 2]⟩, .error (.other 3), .ok ⟨1, 1, [3, 0]⟩,
    .ok ⟨9, 0, []⟩]).run (fun _ n => 2 * n) [⟨1, 3, .accIn⟩] (List.replicate k 0)).acts).map (·.2) =
      [.error (.other 3), .ok [3, 0], .error Err.noReport, .error .eof] :=
  C126_alone _ [⟨1, 3, .accIn⟩] _ 4 _ (by decide +kernel)

end Props
