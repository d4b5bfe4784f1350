import Verif.Props.Online

/-! # Property C77: the orders in which two goroutines may write their trace -/

namespace Props
open Go Spec Ipod Ipod.Hid Ipod.Trace

theorem linesFor_snoc (l : List (Trace.Dir × Bytes)) (d : Trace.Dir) (hd : d = 0 ∨ d = 1) (data : Bytes) :
    linesFor (l ++ [(d, data)]) = (writeMsg (linesFor l) ⟨d, 0, data⟩).1 := by
  rw [writeMsg_text _ _ hd, linesFor, linesFor, List.filter_append, List.map_append, traceText_append]
  congr 2
  by_cases h : data = [] <;> simp [h]

theorem before_nil {d i d' j} : ¬ Before [] d i d' j := by
  rintro ⟨pre, suf, h, _⟩
  cases pre <;> cases h

theorem before_snoc {l : List Trace.Dir} {x d : Trace.Dir} {i : Nat} {d' : Trace.Dir} {j : Nat} :
    Before (l ++ [x]) d i d' j ↔ Before l d i d' j ∨ (x = d ∧ l.count d = i ∧ l.count d' ≤ j) := by
  constructor
  · rintro ⟨pre, suf, h, h1, h2⟩
    rcases List.eq_nil_or_concat suf with rfl | ⟨suf', y, rfl⟩
    · obtain ⟨e, e'⟩ := List.append_inj' h rfl
      subst e
      exact .inr ⟨(List.cons.inj e').1, h1, h2⟩
    · rw [List.concat_eq_append, ← List.cons_append, ← List.append_assoc] at h
      obtain ⟨h, _⟩ := List.append_inj' h rfl
      exact .inl ⟨pre, suf', h, h1, h2⟩
  · rintro (⟨pre, suf, rfl, h1, h2⟩ | ⟨rfl, h1, h2⟩)
    · exact ⟨pre, suf ++ [x], by simp, h1, h2⟩
    · exact ⟨l, [], rfl, h1, h2⟩

theorem before_count {l : List Trace.Dir} {d : Trace.Dir} {i : Nat} {d' : Trace.Dir} {j : Nat} (h : Before l d i d' j) :
    i < l.count d := by
  obtain ⟨pre, suf, rfl, rfl, _⟩ := h
  rw [List.count_append, List.count_cons_self]
  omega

/-! ### What the goroutines do -/

/-- The invariant of the run: `rec` are the operations recorded so far. -/
structure Inv (ins outs : List Bytes) (s : Duplex) (rec : List (Trace.Dir × Bytes)) : Prop where
  file : s.file = linesFor rec
  reads : (s.events.filter (·.1 = 0)).map (·.2) ++ readData s.reads = ins
  writes : (s.events.filter (·.1 = 1)).map (·.2) ++ writeData s.writes = outs
  recReads : (rec.filter (·.1 = 0)).map (·.2) ++ s.readDone.toList = (s.events.filter (·.1 = 0)).map (·.2)
  recWrites : (rec.filter (·.1 = 1)).map (·.2) ++ s.writeDone.toList = (s.events.filter (·.1 = 1)).map (·.2)
  dirs : ∀ x ∈ s.events, x.1 = 0 ∨ x.1 = 1
  recDirs : ∀ x ∈ rec, x.1 = 0 ∨ x.1 = 1
  late : Late (s.events.map (·.1)) (rec.map (·.1))

theorem count_dir (l : List (Trace.Dir × Bytes)) (d : Trace.Dir) :
    (l.map (·.1)).count d = ((l.filter (·.1 = d)).map (·.2)).length := by
  rw [List.length_map, List.count_eq_countP, List.countP_map, ← List.countP_eq_length_filter]
  congr 1

theorem skip01 (x : Bytes) : [(dirIn, x)].filter (fun x => decide (x.1 = 1)) = [] := rfl

theorem skip10 (x : Bytes) : [(dirOut, x)].filter (fun x => decide (x.1 = 0)) = [] := rfl

/-- Counting in the middle of the run. -/
theorem Inv.counts {ins outs : List Bytes} {s : Duplex} {rec : List (Trace.Dir × Bytes)} (h : Inv ins outs s rec) :
    (s.events.map (·.1)).count 0 = (rec.map (·.1)).count 0 + s.readDone.toList.length ∧
    (s.events.map (·.1)).count 1 = (rec.map (·.1)).count 1 + s.writeDone.toList.length := by
  constructor
  · rw [count_dir, count_dir, ← h.recReads, List.length_append]
  · rw [count_dir, count_dir, ← h.recWrites, List.length_append]

/-- An operation of direction `d` is done, none of it being unrecorded. -/
theorem late_op {done rec : List Trace.Dir} (h : Late done rec) (d : Trace.Dir) (h1 : ∀ x, rec.count x ≤ done.count x) :
    Late (done ++ [d]) rec := by
  intro a b hab i j hb hr
  rcases before_snoc.1 hb with hb | ⟨rfl, hi, hj⟩
  · exact h a b hab i j hb hr
  · have := before_count hr
    have := h1 b
    omega

/-- An operation of direction `d` is recorded. -/
theorem late_rec {done rec : List Trace.Dir} (h : Late done rec) (d : Trace.Dir) (h1 : ∀ x, done.count x ≤ rec.count x + 1) :
    Late done (rec ++ [d]) := by
  intro a b hab i j hb hr
  rcases before_snoc.1 hr with hr | ⟨rfl, hi, hj⟩
  · exact h a b hab i j hb hr
  · have := before_count hb
    have := h1 a
    omega

theorem count_other {l : List Trace.Dir} (h : ∀ x ∈ l, x = 0 ∨ x = 1) {d : Trace.Dir} (h0 : d ≠ 0) (h1 : d ≠ 1) : l.count d = 0 :=
  List.count_eq_zero.2 fun hd => by rcases h d hd with h | h <;> contradiction

theorem Inv.le {ins outs : List Bytes} {s : Duplex} {rec : List (Trace.Dir × Bytes)} (h : Inv ins outs s rec) (x : Trace.Dir) :
    (rec.map (·.1)).count x ≤ (s.events.map (·.1)).count x ∧ (s.events.map (·.1)).count x ≤ (rec.map (·.1)).count x + 1 := by
  obtain ⟨c0, c1⟩ := h.counts
  have e : ∀ o : Option Bytes, o.toList.length ≤ 1 := by intro o; cases o <;> simp
  have e0 := e s.readDone
  have e1 := e s.writeDone
  by_cases h0 : x = 0
  · subst h0; omega
  · by_cases h1 : x = 1
    · subst h1; omega
    · have a : (s.events.map (·.1)).count x = 0 := count_other (by simpa using fun a b hab => h.dirs (a, b) hab) h0 h1
      have b : (rec.map (·.1)).count x = 0 := count_other (by simpa using fun a b hab => h.recDirs (a, b) hab) h0 h1
      omega

theorem inv_step {ins outs : List Bytes} {s : Duplex} {rec : List (Trace.Dir × Bytes)} (h : Inv ins outs s rec) (t : Bool) :
    ∃ rec, Inv ins outs (s.step t) rec := by
  have hle := h.le
  obtain ⟨reads, writes, rd, wd, events, file⟩ := s
  obtain ⟨f, r, w, rr, rw_, ds, rds, l⟩ := h
  simp only at *
  cases t with
  | false =>
    cases rd with
    | some d =>
      refine ⟨rec ++ [(0, d)], ?_, r, w, ?_, ?_, ds, ?_, ?_⟩
      · simp only [Duplex.step, linesFor_snoc _ _ (.inl rfl), f]
      · simpa [Duplex.step] using rr
      · simpa [Duplex.step] using rw_
      · intro x hx
        rcases List.mem_append.1 hx with hx | hx
        · exact rds x hx
        · rw [List.mem_singleton] at hx; subst hx; exact .inl rfl
      · rw [List.map_append]
        exact late_rec l _ fun x => (hle x).2
    | none =>
      cases reads with
      | nil => exact ⟨rec, f, r, w, rr, rw_, ds, rds, l⟩
      | cons x rs =>
        obtain ⟨data, err⟩ := x
        cases err with
        | some e => exact ⟨rec, f, by simpa [readData, Duplex.step] using r, w, rr, rw_, ds, rds, l⟩
        | none =>
          refine ⟨rec, f, ?_, ?_, ?_, ?_, ?_, rds, ?_⟩
          · simpa [Duplex.step, readData] using r
          · simpa [Duplex.step, skip01] using w
          · simpa [Duplex.step] using rr
          · simpa [Duplex.step, skip01] using rw_
          · intro x hx
            rcases List.mem_append.1 hx with hx | hx
            · exact ds x hx
            · rw [List.mem_singleton] at hx; subst hx; exact .inl rfl
          · simp only [Duplex.step, List.map_append]
            exact late_op l _ (fun x => (hle x).1)
  | true =>
    cases wd with
    | some d =>
      refine ⟨rec ++ [(1, d)], ?_, r, w, ?_, ?_, ds, ?_, ?_⟩
      · simp only [Duplex.step, linesFor_snoc _ _ (.inr rfl), f]
      · simpa [Duplex.step] using rr
      · simpa [Duplex.step] using rw_
      · intro x hx
        rcases List.mem_append.1 hx with hx | hx
        · exact rds x hx
        · rw [List.mem_singleton] at hx; subst hx; exact .inr rfl
      · rw [List.map_append]
        exact late_rec l _ fun x => (hle x).2
    | none =>
      cases writes with
      | nil => exact ⟨rec, f, r, w, rr, rw_, ds, rds, l⟩
      | cons x rs =>
        obtain ⟨p, n, err⟩ := x
        cases err with
        | some e => exact ⟨rec, f, r, by simpa [writeData, Duplex.step] using w, rr, rw_, ds, rds, l⟩
        | none =>
          refine ⟨rec, f, ?_, ?_, ?_, ?_, ?_, rds, ?_⟩
          · simpa [Duplex.step, skip10] using r
          · simpa [Duplex.step, writeData] using w
          · simpa [Duplex.step, skip10] using rr
          · simpa [Duplex.step] using rw_
          · intro x hx
            rcases List.mem_append.1 hx with hx | hx
            · exact ds x hx
            · rw [List.mem_singleton] at hx; subst hx; exact .inr rfl
          · simp only [Duplex.step, List.map_append]
            exact late_op l _ (fun x => (hle x).1)

theorem inv_run {ins outs : List Bytes} {s : Duplex} {rec : List (Trace.Dir × Bytes)} (h : Inv ins outs s rec) (schedule : List Bool) :
    ∃ rec, Inv ins outs (s.run schedule) rec := by
  induction schedule generalizing s rec with
  | nil => exact ⟨rec, h⟩
  | cons t schedule ih =>
    obtain ⟨rec, h⟩ := inv_step h t
    exact ih h

/-! ### Any such order is possible -/

theorem duplex_append (s : Duplex) (a b : List Bool) : s.run (a ++ b) = (s.run a).run b := List.foldl_append

/-- The reading goroutine gets to its next successful read. -/
theorem next_read (reads : List ReadRes) (writes : List (Bytes × WriteRes)) (wd : Option Bytes) (events : List (Trace.Dir × Bytes))
    (file a : Bytes) (as : List Bytes) (h : readData reads = a :: as) :
    ∃ n reads', Duplex.run ⟨reads, writes, none, wd, events, file⟩ (List.replicate n false) =
      ⟨reads', writes, some a, wd, events ++ [(0, a)], file⟩ ∧ readData reads' = as := by
  induction reads with
  | nil => cases h
  | cons r rs ih =>
    obtain ⟨d, err⟩ := r
    cases err with
    | some e =>
      obtain ⟨n, reads', h1, h2⟩ := ih (by simpa [readData] using h)
      exact ⟨n + 1, reads', h1, h2⟩
    | none =>
      have : d = a ∧ readData rs = as := by simpa [readData] using h
      obtain ⟨rfl, h2⟩ := this
      exact ⟨1, rs, rfl, h2⟩

/-- The writing goroutine gets to its next successful write. -/
theorem next_write (reads : List ReadRes) (writes : List (Bytes × WriteRes)) (rd : Option Bytes) (events : List (Trace.Dir × Bytes))
    (file a : Bytes) (as : List Bytes) (h : writeData writes = a :: as) :
    ∃ n writes', Duplex.run ⟨reads, writes, rd, none, events, file⟩ (List.replicate n true) =
      ⟨reads, writes', rd, some a, events ++ [(1, a)], file⟩ ∧ writeData writes' = as := by
  induction writes with
  | nil => cases h
  | cons r rs ih =>
    obtain ⟨p, n, err⟩ := r
    cases err with
    | some e =>
      obtain ⟨n, writes', h1, h2⟩ := ih (by simpa [writeData] using h)
      exact ⟨n + 1, writes', h1, h2⟩
    | none =>
      have : p.take n = a ∧ writeData rs = as := by simpa [writeData] using h
      obtain ⟨rfl, h2⟩ := this
      exact ⟨1, rs, rfl, h2⟩

/-- What is left are failing operations. -/
theorem rest_fails (reads : List ReadRes) (writes : List (Bytes × WriteRes)) (events : List (Trace.Dir × Bytes)) (file : Bytes)
    (h1 : readData reads = []) (h2 : writeData writes = []) :
    ∃ schedule, Duplex.run ⟨reads, writes, none, none, events, file⟩ schedule = ⟨[], [], none, none, events, file⟩ := by
  induction reads with
  | nil =>
    induction writes with
    | nil => exact ⟨[], rfl⟩
    | cons r rs ih =>
      obtain ⟨p, n, err⟩ := r
      cases err with
      | none => simp [writeData] at h2
      | some e =>
        obtain ⟨sch, h⟩ := ih (by simpa [writeData] using h2)
        exact ⟨true :: sch, h⟩
  | cons r rs ih =>
    obtain ⟨d, err⟩ := r
    cases err with
    | none => simp [readData] at h1
    | some e =>
      obtain ⟨sch, h⟩ := ih (by simpa [readData] using h1)
      exact ⟨false :: sch, h⟩

/-- The data of one direction. -/
def dirData (d : Trace.Dir) (l : List (Trace.Dir × Bytes)) : List Bytes := (l.filter (·.1 = d)).map (·.2)

theorem dirData_same (d : Trace.Dir) (x : Bytes) (l : List (Trace.Dir × Bytes)) : dirData d ((d, x) :: l) = x :: dirData d l := by
  simp [dirData]

theorem dirData_other {d d' : Trace.Dir} (h : d ≠ d') (x : Bytes) (l : List (Trace.Dir × Bytes)) :
    dirData d' ((d, x) :: l) = dirData d' l := by
  simp [dirData, h]

theorem dirData_append (d : Trace.Dir) (a b : List (Trace.Dir × Bytes)) : dirData d (a ++ b) = dirData d a ++ dirData d b := by
  simp [dirData]

/-- The counts of what has been done exceed those of what has been recorded by the operation in between. -/
theorem counts_of {d : Trace.Dir} {E R : List (Trace.Dir × Bytes)} {o : Option Bytes} (h : dirData d R ++ o.toList = dirData d E) :
    (E.map (·.1)).count d = (R.map (·.1)).count d + o.toList.length := by
  rw [count_dir, count_dir]
  have := congrArg List.length h
  rw [List.length_append] at this
  exact this.symm

theorem late_stuck {done rec : List Trace.Dir} {d e : Trace.Dir} {E R : List Trace.Dir} (hde : e ≠ d)
    (h : Late (done ++ e :: E) (rec ++ d :: R)) (h1 : done.count d = rec.count d) (h2 : done.count e = rec.count e + 1) : False :=
  h e d hde (rec.count e) (rec.count d) ⟨done, E, rfl, h2, by omega⟩ ⟨rec, R, rfl, rfl, Nat.le_refl _⟩

/-- From the middle of a run. -/
theorem reach (n : Nat) (reads : List ReadRes) (writes : List (Bytes × WriteRes)) (rd wd : Option Bytes)
    (E0 E R0 R : List (Trace.Dir × Bytes)) (hn : E.length + R.length ≤ n)
    (hE : Merges (readData reads) (writeData writes) E)
    (hR0 : dirData 0 R = rd.toList ++ readData reads) (hR1 : dirData 1 R = wd.toList ++ writeData writes) (hR : ∀ x ∈ R, x.1 = 0 ∨ x.1 = 1)
    (c0 : dirData 0 R0 ++ rd.toList = dirData 0 E0) (c1 : dirData 1 R0 ++ wd.toList = dirData 1 E0)
    (hl : Late ((E0 ++ E).map (·.1)) ((R0 ++ R).map (·.1))) :
    ∃ schedule, Duplex.run ⟨reads, writes, rd, wd, E0, linesFor R0⟩ schedule = ⟨[], [], none, none, E0 ++ E, linesFor (R0 ++ R)⟩ := by
  induction n generalizing reads writes rd wd E0 E R0 R with
  | zero =>
    have e1 : E = [] := List.length_eq_zero_iff.1 (by omega)
    have e2 : R = [] := List.length_eq_zero_iff.1 (by omega)
    subst e1; subst e2
    have a0 := List.append_eq_nil_iff.1 hR0.symm
    have a1 := List.append_eq_nil_iff.1 hR1.symm
    have : rd = none := by cases rd <;> simp_all
    subst this
    have : wd = none := by cases wd <;> simp_all
    subst this
    rw [List.append_nil, List.append_nil]
    exact rest_fails _ _ _ _ a0.2 a1.2
  | succ n ih =>
    obtain ⟨hE0, hE1, hEd⟩ := hE
    cases R with
    | nil =>
      have a0 := List.append_eq_nil_iff.1 hR0.symm
      have a1 := List.append_eq_nil_iff.1 hR1.symm
      have h1 : rd = none := by cases rd <;> simp_all
      subst h1
      have h2 : wd = none := by cases wd <;> simp_all
      subst h2
      have h3 : E = [] := by
        cases E with
        | nil => rfl
        | cons x E =>
          obtain ⟨d, b⟩ := x
          rw [a0.2] at hE0
          rw [a1.2] at hE1
          rcases hEd (d, b) (by simp) with h | h <;> (simp only at h; subst h; simp at hE0 hE1)
      subst h3
      rw [List.append_nil, List.append_nil]
      exact rest_fails _ _ _ _ a0.2 a1.2
    | cons y R =>
      obtain ⟨d, b⟩ := y
      have hRd : ∀ x ∈ R, x.1 = 0 ∨ x.1 = 1 := fun x hx => hR x (by simp [hx])
      -- An operation can be done.
      have doRead : ∀ a E', E = (0, a) :: E' → rd = none → ∃ schedule,
          Duplex.run ⟨reads, writes, rd, wd, E0, linesFor R0⟩ schedule =
            ⟨[], [], none, none, E0 ++ E, linesFor (R0 ++ (d, b) :: R)⟩ := by
        rintro a E' rfl rfl
        change dirData 0 _ = _ at hE0
        change dirData 1 _ = _ at hE1
        rw [dirData_same] at hE0
        rw [dirData_other (by decide)] at hE1
        obtain ⟨k, reads', h1, h2⟩ := next_read reads writes wd E0 (linesFor R0) a _ hE0.symm
        obtain ⟨sch, h3⟩ := ih reads' writes (some a) wd (E0 ++ [(0, a)]) E' R0 ((d, b) :: R) (by simp at hn ⊢; omega)
          ⟨h2.symm, hE1, fun x hx => hEd x (by simp [hx])⟩ (by rw [hR0, ← hE0, h2]; rfl) hR1 hR
          (by rw [dirData_append, ← c0]; simp [dirData]) (by rw [dirData_append, ← c1]; simp only [dirData, skip01]; simp)
          (by simpa using hl)
        exact ⟨List.replicate k false ++ sch, by rw [duplex_append, h1, h3]; simp⟩
      have doWrite : ∀ a E', E = (1, a) :: E' → wd = none → ∃ schedule,
          Duplex.run ⟨reads, writes, rd, wd, E0, linesFor R0⟩ schedule =
            ⟨[], [], none, none, E0 ++ E, linesFor (R0 ++ (d, b) :: R)⟩ := by
        rintro a E' rfl rfl
        change dirData 0 _ = _ at hE0
        change dirData 1 _ = _ at hE1
        rw [dirData_same] at hE1
        rw [dirData_other (by decide)] at hE0
        obtain ⟨k, writes', h1, h2⟩ := next_write reads writes rd E0 (linesFor R0) a _ hE1.symm
        obtain ⟨sch, h3⟩ := ih reads writes' rd (some a) (E0 ++ [(1, a)]) E' R0 ((d, b) :: R) (by simp at hn ⊢; omega)
          ⟨hE0, h2.symm, fun x hx => hEd x (by simp [hx])⟩ hR0 (by rw [hR1, ← hE1, h2]; rfl) hR
          (by rw [dirData_append, ← c0]; simp only [dirData, skip10]; simp) (by rw [dirData_append, ← c1]; simp [dirData])
          (by simpa using hl)
        exact ⟨List.replicate k true ++ sch, by rw [duplex_append, h1, h3]; simp⟩
      have hstuck : ∀ e a E', E = (e, a) :: E' → e ≠ d → (E0.map (·.1)).count d = (R0.map (·.1)).count d →
          (E0.map (·.1)).count e = (R0.map (·.1)).count e + 1 → False := by
        rintro e a E' rfl hne h1 h2
        rw [List.map_append, List.map_append, List.map_cons, List.map_cons] at hl
        exact late_stuck hne hl h1 h2
      rcases hR (d, b) (by simp) with h | h
      · simp only at h; subst h
        rw [dirData_same] at hR0
        rw [dirData_other (by decide)] at hR1
        cases rd with
        | some a =>
          -- the read is recorded
          obtain ⟨e, hR0'⟩ := List.cons.inj hR0
          subst e
          obtain ⟨sch, h3⟩ := ih reads writes none wd E0 E (R0 ++ [(0, b)]) R (by simp at hn ⊢; omega) ⟨hE0, hE1, hEd⟩ hR0' hR1 hRd
            (by rw [← c0, dirData_append]; simp [dirData]) (by rw [dirData_append, ← c1]; simp only [dirData, skip01]; simp)
            (by simpa using hl)
          refine ⟨false :: sch, ?_⟩
          rw [linesFor_snoc _ _ (.inl rfl)] at h3
          simpa [Duplex.run, Duplex.step] using h3
        | none =>
          cases E with
          | nil => rw [← hE0] at hR0; simp at hR0
          | cons x E =>
            obtain ⟨e, a⟩ := x
            rcases hEd (e, a) (by simp) with h | h
            · simp only at h; subst h; exact doRead a E rfl rfl
            · simp only at h; subst h
              cases wd with
              | none => exact doWrite a E rfl rfl
              | some w => exact (hstuck 1 a E rfl (by decide) (counts_of c0) (counts_of c1)).elim
      · simp only at h; subst h
        rw [dirData_same] at hR1
        rw [dirData_other (by decide)] at hR0
        cases wd with
        | some a =>
          obtain ⟨e, hR1'⟩ := List.cons.inj hR1
          subst e
          obtain ⟨sch, h3⟩ := ih reads writes rd none E0 E (R0 ++ [(1, b)]) R (by simp at hn ⊢; omega) ⟨hE0, hE1, hEd⟩ hR0 hR1' hRd
            (by rw [dirData_append, ← c0]; simp only [dirData, skip10]; simp) (by rw [← c1, dirData_append]; simp [dirData])
            (by simpa using hl)
          refine ⟨true :: sch, ?_⟩
          rw [linesFor_snoc _ _ (.inr rfl)] at h3
          simpa [Duplex.run, Duplex.step] using h3
        | none =>
          cases E with
          | nil => rw [← hE1] at hR1; simp at hR1
          | cons x E =>
            obtain ⟨e, a⟩ := x
            rcases hEd (e, a) (by simp) with h | h
            · simp only at h; subst h
              cases rd with
              | none => exact doRead a E rfl rfl
              | some w => exact (hstuck 0 a E rfl (by decide) (counts_of c1) (counts_of c0)).elim
            · simp only at h; subst h; exact doWrite a E rfl rfl

/-- C77, exactly. Two goroutines, all their reads and writes done and recorded: at the device they happened in the order `done`,
and the trace file has the content `file`, in some schedule, iff `done` merges the successful reads and writes, and the file has
their lines in an order that differs from `done` only by operations written down late, none later than what was done after
the next operation of its direction. -/
theorem C77_orders_iff (reads : List ReadRes) (writes : List (Bytes × WriteRes)) (done : List (Trace.Dir × Bytes)) (file : Bytes) :
    (∃ schedule, (Duplex.start reads writes).run schedule = ⟨[], [], none, none, done, file⟩) ↔
    Merges (readData reads) (writeData writes) done ∧
      ∃ rec, Merges (readData reads) (writeData writes) rec ∧ Late (done.map (·.1)) (rec.map (·.1)) ∧ file = linesFor rec := by
  constructor
  · rintro ⟨sch, h⟩
    have h0 : Inv (readData reads) (writeData writes) (Duplex.start reads writes) [] :=
      ⟨rfl, rfl, rfl, rfl, rfl, by simp [Duplex.start], by simp, fun _ _ _ _ _ h => absurd h before_nil⟩
    obtain ⟨rec, f, r, w, rr, rw_, ds, rds, l⟩ := inv_run h0 sch
    rw [h] at f r w rr rw_ ds l
    simp only [readData, writeData, List.filter_nil, List.map_nil, List.append_nil, Option.toList_none] at r w rr rw_
    exact ⟨⟨r, w, ds⟩, rec, ⟨rr.trans r, rw_.trans w, rds⟩, l, f⟩
  · rintro ⟨hE, rec, ⟨h0, h1, hR⟩, hl, rfl⟩
    exact reach _ reads writes none none [] done [] rec (Nat.le_refl _) hE h0 h1 hR rfl rfl hl

/-- A write recorded only after two reads that came later. -/
example : ∃ schedule, (Duplex.start [⟨[1], none⟩, ⟨[2], none⟩] [([3], ⟨1, none⟩)]).run schedule =
    ⟨[], [], none, none, [(1, [3]), (0, [1]), (0, [2])], linesFor [(0, [1]), (0, [2]), (1, [3])]⟩ := by
  refine (C77_orders_iff _ _ _ _).2 ⟨⟨rfl, rfl, by simp⟩, [(0, [1]), (0, [2]), (1, [3])], ⟨rfl, rfl, by simp⟩, ?_, rfl⟩
  intro d d' hd i j h1 h2
  have c1 := before_count h1
  have c2 := before_count h2
  obtain ⟨pre, suf, e, e1, e2⟩ := h1
  match pre, e with
  | [], e => cases e1
  | [_], e => cases e; simp at e1
  | [_, _], e =>
    cases e
    by_cases h : d' = 1
    · subst h; simp at e2 c2; omega
    · rw [List.count_eq_zero.2 (by simp; exact ⟨Ne.symm hd, h⟩)] at c2; omega
  | _ :: _ :: _ :: pre, e => simp at e

/-- A read that came after two writes is not recorded before both. -/
example : ¬ Late [1, 1, 0] [0, 1, 1] := fun h =>
  h 1 0 (by decide) 0 0 ⟨[1], [0], rfl, rfl, by decide⟩ ⟨[], [1, 1], rfl, rfl, by decide⟩

end Props
