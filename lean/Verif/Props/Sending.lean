import Verif.Spec.Sending
import Verif.Props.Cli

/-! # Property C98: the `send` command as a whole -/

namespace Props
open Go Spec Ipod Ipod.Hid Ipod.Cli

theorem sending_crashed {σ : Type} (D : Device σ) (clock : Clock) (grow : Growth) (defs : List ReportDef) {s : Sending σ}
    (h : s.crashed = true) (schedule : List Bool) : s.run D clock grow defs schedule = s := by
  induction schedule with
  | nil => rfl
  | cons t schedule ih =>
    rw [Sending.run, List.foldl_cons, Sending.step.eq_def, if_pos h]
    exact ih

/-- A step is none at all, or one at the device or in the trace. -/
theorem sending_step_duplex {σ : Type} (D : Device σ) (clock : Clock) (grow : Growth) (defs : List ReportDef) (s : Sending σ)
    (t : Bool) : (s.step D clock grow defs t).duplex = s.duplex ∨ (s.step D clock grow defs t).duplex = s.duplex.step t := by
  have htook : ∀ (s : Sending σ) x, (s.took x).duplex = s.duplex := by
    intro s x
    cases x <;> rfl
  rw [Sending.step.eq_def]
  split
  · exact .inl rfl
  · split
    · exact .inr rfl
    · split
      · exact .inl rfl
      · split
        · exact .inr (htook _ _)
        · split
          · exact .inl rfl
          · split
            · exact .inr rfl
            · exact .inr (htook _ _)

/-- C98, the trace. What happens at the device and in the trace file is as in C77, whatever the server does: the theorems on the
two goroutines sharing a tracer apply. -/
theorem C98_trace {σ : Type} (D : Device σ) (clock : Clock) (grow : Growth) (defs : List ReportDef) (s : Sending σ)
    (schedule : List Bool) : ∃ sch, sch.Sublist schedule ∧ (s.run D clock grow defs schedule).duplex = s.duplex.run sch := by
  induction schedule generalizing s with
  | nil => exact ⟨[], .slnil, rfl⟩
  | cons t schedule ih =>
    rw [Sending.run, List.foldl_cons]
    obtain ⟨sch, h1, h2⟩ := ih (s.step D clock grow defs t)
    rcases sending_step_duplex D clock grow defs s t with h | h
    · exact ⟨sch, h1.cons _, by rw [← h]; exact h2⟩
    · refine ⟨t :: sch, h1.cons_cons _, ?_⟩
      rw [Duplex.run, List.foldl_cons, ← h]
      exact h2

theorem given_append (a b : List (Trace.Dir × Bytes)) : given (a ++ b) = given a ++ given b := by simp [given]

/-- What a step of the writing goroutine does to the writes; one of the other does nothing to them. -/
theorem step_false_writes (s : Duplex) : (s.step false).writes = s.writes ∧ (s.step false).writeDone = s.writeDone ∧
    given (s.step false).events = given s.events := by
  obtain ⟨reads, writes, rd, wd, events, file⟩ := s
  cases rd with
  | some d => exact ⟨rfl, rfl, rfl⟩
  | none =>
    cases reads with
    | nil => exact ⟨rfl, rfl, rfl⟩
    | cons r rs =>
      obtain ⟨data, err⟩ := r
      cases err with
      | some e => exact ⟨rfl, rfl, rfl⟩
      | none =>
        refine ⟨rfl, rfl, ?_⟩
        simp only [Duplex.step, given_append]
        have : given [(Trace.dirIn, data)] = [] := by simp [given, Trace.dirIn]
        rw [this, List.append_nil]

/-- C98, in order: at any time the device has been given a beginning of the reports, in order. -/
theorem C98_prefix {σ : Type} (D : Device σ) (clock : Clock) (grow : Growth) (defs : List ReportDef) (s0 : Srv σ)
    (reads : List ReadRes) (writes : List (Bytes × Trace.WriteRes)) (schedule : List Bool) :
    let s := (Sending.start s0 reads writes).run D clock grow defs schedule
    ∃ k, k ≤ writes.length ∧ s.duplex.writes = writes.drop k ∧ given s.duplex.events = takenOf writes k := by
  intro s
  obtain ⟨sch, _, hs⟩ := C98_trace D clock grow defs (Sending.start s0 reads writes) schedule
  rw [show s.duplex = _ from hs]
  have key : ∀ (sch : List Bool) (d : Duplex), (∃ k, k ≤ writes.length ∧ d.writes = writes.drop k ∧ given d.events = takenOf writes k) →
      ∃ k, k ≤ writes.length ∧ (d.run sch).writes = writes.drop k ∧ given (d.run sch).events = takenOf writes k := by
    intro sch
    induction sch with
    | nil => exact fun d h => h
    | cons t sch ih =>
      rintro d ⟨k, h1, h2, h3⟩
      rw [Duplex.run, List.foldl_cons]
      refine ih (d.step t) ?_
      cases t with
      | false =>
        obtain ⟨e1, _, e3⟩ := step_false_writes d
        exact ⟨k, h1, e1.trans h2, e3.trans h3⟩
      | true =>
        obtain ⟨reads, ws, rd, wd, events, file⟩ := d
        simp only at h2 h3
        cases wd with
        | some d => exact ⟨k, h1, h2, h3⟩
        | none =>
          cases ws with
          | nil => exact ⟨k, h1, h2, h3⟩
          | cons w ws =>
            have hk : k < writes.length := by
              have := congrArg List.length h2
              simp at this; omega
            have hw : writes[k] = w ∧ writes.drop (k + 1) = ws := by
              rw [List.drop_eq_getElem_cons hk] at h2
              injection h2 with a b
              exact ⟨a.symm, b.symm⟩
            have ht : takenOf writes (k + 1) = takenOf writes k ++ takenOf [w] 1 := by
              simp [takenOf, List.take_add_one, List.getElem?_eq_getElem hk, hw.1]
            obtain ⟨p, n, err⟩ := w
            refine ⟨k + 1, by omega, ?_⟩
            cases err with
            | some e =>
              refine ⟨hw.2.symm, ?_⟩
              simp only [Duplex.step, ht, h3]
              simp [takenOf]
            | none =>
              refine ⟨hw.2.symm, ?_⟩
              simp only [Duplex.step, given_append, ht, h3]
              simp [takenOf, given, Trace.dirOut]
  exact key sch _ ⟨0, by omega, rfl, rfl⟩

/-- The part of the state the writing goroutine works on. -/
def wpart (d : Duplex) : List (Bytes × Trace.WriteRes) × Option Bytes × List Bytes := (d.writes, d.writeDone, given d.events)

theorem wpart_step {d d' : Duplex} (h : wpart d = wpart d') : wpart (d.step true) = wpart (d'.step true) := by
  obtain ⟨reads, ws, rd, wd, events, file⟩ := d
  obtain ⟨reads', ws', rd', wd', events', file'⟩ := d'
  simp only [wpart, Prod.mk.injEq] at h
  obtain ⟨rfl, rfl, h3⟩ := h
  cases wd with
  | some d => simp only [Duplex.step, wpart, h3]
  | none =>
    cases ws with
    | nil => simp only [Duplex.step, wpart, h3]
    | cons w ws =>
      obtain ⟨p, n, err⟩ := w
      cases err with
      | some e => simp only [Duplex.step, wpart, h3]
      | none => simp only [Duplex.step, wpart, given_append, h3]

/-- The writing goroutine alone, for `n` steps. -/
def wsteps : Nat → Duplex → Duplex
  | 0, d => d
  | n + 1, d => wsteps n (d.step true)

theorem wpart_steps {d d' : Duplex} (h : wpart d = wpart d') (n : Nat) : wpart (wsteps n d) = wpart (wsteps n d') := by
  induction n generalizing d d' with
  | zero => exact h
  | succ n ih => exact ih (wpart_step h)

theorem wpart_run {σ : Type} (D : Device σ) (clock : Clock) (grow : Growth) (defs : List ReportDef) (s : Sending σ)
    (schedule : List Bool) (h : (s.run D clock grow defs schedule).crashed = false) :
    wpart (s.run D clock grow defs schedule).duplex = wpart (wsteps (schedule.count true) s.duplex) := by
  induction schedule generalizing s with
  | nil => rfl
  | cons t schedule ih =>
    rw [Sending.run, List.foldl_cons] at h ⊢
    have hc : s.crashed = false := by
      cases hc : s.crashed with
      | false => rfl
      | true =>
        rw [Sending.step.eq_def, if_pos hc] at h
        have := congrArg Sending.crashed (sending_crashed D clock grow defs hc schedule)
        rw [Sending.run] at this
        rw [this, hc] at h
        cases h
    refine (ih _ h).trans ?_
    cases t with
    | true =>
      rw [List.count_cons_self, wsteps]
      apply wpart_steps
      rw [Sending.step.eq_def, if_neg (by simp [hc])]
    | false =>
      rw [List.count_cons_of_ne (by decide)]
      apply wpart_steps
      rcases sending_step_duplex D clock grow defs s false with e | e
      · rw [e]
      · rw [e]
        obtain ⟨e1, e2, e3⟩ := step_false_writes s.duplex
        simp only [wpart, e1, e2, e3]

/-- C98, independence. As long as the server has not crashed the process, what has been sent depends only on how often the sending
goroutine has had its turn, not on what the device has sent back, nor on what the server has made of it. -/
theorem C98_independent {σ σ' : Type} (D : Device σ) (D' : Device σ') (clock clock' : Clock) (grow grow' : Growth)
    (defs defs' : List ReportDef) (s0 : Srv σ) (s0' : Srv σ') (reads reads' : List ReadRes)
    (writes : List (Bytes × Trace.WriteRes)) (schedule schedule' : List Bool) (hn : schedule.count true = schedule'.count true) :
    let s := (Sending.start s0 reads writes).run D clock grow defs schedule
    let s' := (Sending.start s0' reads' writes).run D' clock' grow' defs' schedule'
    s.crashed = false → s'.crashed = false →
      given s.duplex.events = given s'.duplex.events ∧ s.duplex.writes = s'.duplex.writes := by
  intro s s' h h'
  have e := wpart_run D clock grow defs _ schedule h
  have e' := wpart_run D' clock' grow' defs' _ schedule' h'
  rw [hn] at e
  have := (e.trans (wpart_steps (d := (Sending.start s0 reads writes).duplex) (d' := (Sending.start s0' reads' writes).duplex) rfl _)).trans e'.symm
  simp only [wpart, Prod.mk.injEq] at this
  exact ⟨this.2.2, this.1⟩

theorem wsteps_done (n : Nat) (d : Duplex) (h : 2 * d.writes.length + d.writeDone.toList.length ≤ n) :
    (wsteps n d).writes = [] ∧ (wsteps n d).writeDone = none := by
  induction n generalizing d with
  | zero =>
    obtain ⟨reads, ws, rd, wd, events, file⟩ := d
    cases ws with
    | cons w ws => simp at h
    | nil =>
      cases wd with
      | some d => simp at h
      | none => exact ⟨rfl, rfl⟩
  | succ n ih =>
    refine ih (d.step true) ?_
    obtain ⟨reads, ws, rd, wd, events, file⟩ := d
    cases wd with
    | some d => simp [Duplex.step] at h ⊢; omega
    | none =>
      cases ws with
      | nil => simp [Duplex.step]
      | cons w ws =>
        obtain ⟨p, k, err⟩ := w
        cases err with
        | some e => simp [Duplex.step] at h ⊢; omega
        | none => simp [Duplex.step] at h ⊢; omega

/-- C98, part: if the server does not crash the process, the device is given all reports once the sending goroutine has had its turn
twice for each. Missing: processes that are crashed, see `C98_crashed_iff` and `C98_fails`. -/
theorem C98_complete_partial {σ : Type} (D : Device σ) (clock : Clock) (grow : Growth) (defs : List ReportDef) (s0 : Srv σ)
    (reads : List ReadRes) (writes : List (Bytes × Trace.WriteRes)) (schedule : List Bool)
    (hn : 2 * writes.length ≤ schedule.count true) :
    let s := (Sending.start s0 reads writes).run D clock grow defs schedule
    s.crashed = false → AllMade s ∧ given s.duplex.events = takenOf writes writes.length := by
  intro s h
  have e := wpart_run D clock grow defs _ schedule h
  obtain ⟨h1, h2⟩ := wsteps_done (schedule.count true) (Sending.start s0 reads writes).duplex (by
    simpa [Sending.start, Duplex.start] using hn)
  simp only [wpart, h1, h2, Prod.mk.injEq] at e
  obtain ⟨k, k1, k2, k3⟩ := C98_prefix D clock grow defs s0 reads writes schedule
  refine ⟨⟨e.1, e.2.1⟩, ?_⟩
  have : writes.drop k = [] := k2.symm.trans e.1
  have : writes.length ≤ k := by simpa using this
  rw [show k = writes.length by omega] at k3
  exact k3

example (s : Sending DevGeneral) (hs : s = (Sending.start (Srv.init DevGeneral.zero) [⟨[0x01, 0x00, 0x55, 0x02, 0x00, 0x11, 0xED], none⟩]
      [([1, 0, 0x55], ⟨3, none⟩), ([1, 0, 0x56], ⟨3, none⟩)]).run devGeneral (fun _ => ⟨2024, 1, 2, 3, 4⟩) (fun _ n => n) defaultReportDefs
        [true, false, true, true, false, true]) (hc : s.crashed = false) :
    AllMade s ∧ given s.duplex.events = takenOf [([1, 0, 0x55], ⟨3, none⟩), ([1, 0, 0x56], ⟨3, none⟩)] 2 := by
  subst hs
  exact C98_complete_partial _ _ _ _ _ _ [([1, 0, 0x55], ⟨3, none⟩), ([1, 0, 0x56], ⟨3, none⟩)] [true, false, true, true, false, true]
    (by decide) hc

/-- C98, the server. The server of `send` is the one of `serve`: there is a beginning of the device's answers it has dealt with, the next
one is at most being recorded, the rest has not been read yet. It has crashed the process iff it panics on that beginning; it has
returned iff it does there. -/
theorem C98_server {σ : Type} (D : Device σ) (clock : Clock) (grow : Growth) (defs : List ReportDef) (s0 : Srv σ)
    (reads : List ReadRes) (writes : List (Bytes × Trace.WriteRes)) (schedule : List Bool) :
    let s := (Sending.start s0 reads writes).run D clock grow defs schedule
    ∃ dealt, reads = dealt ++ (s.duplex.readDone.toList.map (⟨·, none⟩)) ++ s.duplex.reads ∧
      (s.crashed = true ↔ observed D clock grow defs dealt s0 = .panic) ∧
      (∀ l, s.crashed = false → s.server = some l → observed D clock grow defs dealt s0 = .ret (l, true)) ∧
      (s.crashed = false → s.server = none → ∃ l, observed D clock grow defs dealt s0 = .ret (l, false)) := by
  have key : ∀ (schedule : List Bool) (s : Sending σ),
      (∃ dealt, reads = dealt ++ (s.duplex.readDone.toList.map (⟨·, none⟩)) ++ s.duplex.reads ∧
        (s.crashed = true ↔ observed D clock grow defs dealt s0 = .panic) ∧
        (∀ l, s.crashed = false → s.server = some l → observed D clock grow defs dealt s0 = .ret (l, true)) ∧
        (s.crashed = false → s.server = none → ∃ l, observed D clock grow defs dealt s0 = .ret (l, false))) →
      ∃ dealt, reads = dealt ++ ((s.run D clock grow defs schedule).duplex.readDone.toList.map (⟨·, none⟩)) ++
          (s.run D clock grow defs schedule).duplex.reads ∧
        ((s.run D clock grow defs schedule).crashed = true ↔ observed D clock grow defs dealt s0 = .panic) ∧
        (∀ l, (s.run D clock grow defs schedule).crashed = false → (s.run D clock grow defs schedule).server = some l →
          observed D clock grow defs dealt s0 = .ret (l, true)) ∧
        ((s.run D clock grow defs schedule).crashed = false → (s.run D clock grow defs schedule).server = none →
          ∃ l, observed D clock grow defs dealt s0 = .ret (l, false)) := by
    intro schedule
    induction schedule with
    | nil => exact fun s h => h
    | cons t schedule ih =>
      intro s h
      rw [Sending.run, List.foldl_cons]
      refine ih (s.step D clock grow defs t) ?_
      obtain ⟨⟨rs, ws, rd, wd, events, file⟩, server, crashed⟩ := s
      cases crashed with
      | true => exact h
      | false =>
        obtain ⟨dealt, h1, h2, h3, h4⟩ := h
        cases t with
        | true =>
          refine ⟨dealt, ?_, h2, h3, h4⟩
          rw [h1]
          simp only [Sending.step, Bool.false_eq_true, ↓reduceIte]
          cases wd with
          | some d => rfl
          | none =>
            cases ws with
            | nil => rfl
            | cons w ws =>
              obtain ⟨p, n, err⟩ := w
              cases err <;> rfl
        | false =>
          cases server with
          | none => exact ⟨dealt, h1, h2, h3, h4⟩
          | some l =>
            have hl := h3 l rfl rfl
            have took : ∀ (d : Duplex) (r : ReadRes) (rest : List ReadRes), reads = dealt ++ r :: rest → d.readDone = none →
                d.reads = rest →
                ∃ dealt, reads = dealt ++ ((Sending.took ⟨d, some l, false⟩ (l.onRead D clock grow defs r)).duplex.readDone.toList.map
                    (⟨·, none⟩)) ++ (Sending.took ⟨d, some l, false⟩ (l.onRead D clock grow defs r)).duplex.reads ∧
                  ((Sending.took ⟨d, some l, false⟩ (l.onRead D clock grow defs r)).crashed = true ↔
                    observed D clock grow defs dealt s0 = .panic) ∧
                  (∀ l', (Sending.took ⟨d, some l, false⟩ (l.onRead D clock grow defs r)).crashed = false →
                    (Sending.took ⟨d, some l, false⟩ (l.onRead D clock grow defs r)).server = some l' →
                    observed D clock grow defs dealt s0 = .ret (l', true)) ∧
                  ((Sending.took ⟨d, some l, false⟩ (l.onRead D clock grow defs r)).crashed = false →
                    (Sending.took ⟨d, some l, false⟩ (l.onRead D clock grow defs r)).server = none →
                    ∃ l, observed D clock grow defs dealt s0 = .ret (l, false)) := by
              intro d r rest hr hd1 hd2
              have ho : observed D clock grow defs (dealt ++ [r]) s0 = (l.onRead D clock grow defs r >>= fun x =>
                  match x with
                  | none => .ret (l, false)
                  | some l => .ret (l, true)) := by
                rw [observed, run_append, show Live.run D clock grow defs dealt (Live.start s0) = _ from hl]
                rfl
              refine ⟨dealt ++ [r], ?_, ?_⟩
              · have e : ∀ x, (Sending.took ⟨d, some l, false⟩ x).duplex = d := by intro x; cases x <;> rfl
                rw [e, hd1, hd2, hr]
                simp
              · rw [ho]
                cases l.onRead D clock grow defs r with
                | panic => exact ⟨⟨fun _ => rfl, fun _ => rfl⟩, nofun, nofun⟩
                | ret x =>
                  cases x with
                  | none => exact ⟨⟨nofun, nofun⟩, nofun, fun _ _ => ⟨l, rfl⟩⟩
                  | some l1 =>
                    refine ⟨⟨nofun, nofun⟩, ?_, nofun⟩
                    intro l' _ h
                    cases h
                    rfl
            simp only [Sending.step, Bool.false_eq_true, ↓reduceIte]
            cases rd with
            | some d =>
              exact took _ ⟨d, none⟩ rs (by rw [h1]; simp) rfl rfl
            | none =>
              cases rs with
              | nil => exact ⟨dealt, h1, h2, h3, h4⟩
              | cons r rs =>
                obtain ⟨data, err⟩ := r
                cases err with
                | none =>
                  refine ⟨dealt, ?_, h2, h3, h4⟩
                  rw [h1]
                  simp [Duplex.step]
                | some e => exact took _ ⟨data, some e⟩ rs (by rw [h1]; simp) rfl rfl
  exact key schedule _ ⟨[], rfl, ⟨nofun, nofun⟩, fun l _ h => by cases h; rfl, fun _ => nofun⟩

/-- The server's goroutine alone: it gets to where the server gets on these reads. -/
theorem server_alone {σ : Type} (D : Device σ) (clock : Clock) (grow : Growth) (defs : List ReportDef) (rs : List ReadRes) (l : Live σ)
    (d : Duplex) (hr : d.reads = rs) (hd : d.readDone = none) :
    ∃ schedule, (Live.run D clock grow defs rs l = .panic → (Sending.run D clock grow defs ⟨d, some l, false⟩ schedule).crashed = true) ∧
      ∀ l', Live.run D clock grow defs rs l = .ret (l', false) →
        (Sending.run D clock grow defs ⟨d, some l, false⟩ schedule).crashed = false ∧
        (Sending.run D clock grow defs ⟨d, some l, false⟩ schedule).server = none := by
  induction rs generalizing l d with
  | nil => exact ⟨[], nofun, nofun⟩
  | cons r rs ih =>
    obtain ⟨reads', ws, rd, wd, events, file⟩ := d
    simp only at hr hd
    subst hr hd
    obtain ⟨data, err⟩ := r
    simp only [Live.run]
    have go : ∃ sch d', d'.reads = rs ∧ d'.readDone = none ∧
        Sending.run D clock grow defs ⟨⟨⟨data, err⟩ :: rs, ws, none, wd, events, file⟩, some l, false⟩ sch =
          Sending.took ⟨d', some l, false⟩ (l.onRead D clock grow defs ⟨data, err⟩) := by
      cases err with
      | none => exact ⟨[false, false], _, by exact rfl, rfl, rfl⟩
      | some e => exact ⟨[false], _, by exact rfl, rfl, rfl⟩
    obtain ⟨sch, d', g1, g2, g3⟩ := go
    cases ho : l.onRead D clock grow defs ⟨data, err⟩ with
    | panic => exact ⟨sch, fun _ => by rw [g3, ho]; rfl, nofun⟩
    | ret x =>
      cases x with
      | none => exact ⟨sch, nofun, fun l' _ => by rw [g3, ho]; exact ⟨rfl, rfl⟩⟩
      | some l1 =>
        obtain ⟨sch', h1, h2⟩ := ih l1 d' g1 g2
        refine ⟨sch ++ sch', ?_⟩
        rw [Sending.run, List.foldl_append]
        rw [Sending.run] at g3
        rw [g3, ho]
        exact ⟨h1, h2⟩

/-- C98. The process is crashed iff the server has got so far in the device's answers that it panics on them. -/
theorem C98_crashed_iff {σ : Type} (D : Device σ) (clock : Clock) (grow : Growth) (defs : List ReportDef) (s0 : Srv σ)
    (reads : List ReadRes) (writes : List (Bytes × Trace.WriteRes)) :
    (∃ schedule, ((Sending.start s0 reads writes).run D clock grow defs schedule).crashed = true) ↔
      observed D clock grow defs reads s0 = .panic := by
  constructor
  · rintro ⟨schedule, h⟩
    obtain ⟨dealt, h1, h2, _⟩ := C98_server D clock grow defs s0 reads writes schedule
    have hp := h2.1 h
    rw [h1, observed, List.append_assoc, run_append, show Live.run D clock grow defs dealt (Live.start s0) = _ from hp]
    rfl
  · intro h
    obtain ⟨sch, h1, _⟩ := server_alone D clock grow defs reads (Live.start s0) (Duplex.start reads writes) rfl rfl
    exact ⟨sch, (h1 h)⟩

theorem sendEnds_iff (reads : List ReadRes) : sendEnds reads = true ↔ ∃ x ∈ reads, ¬ IsReport x := by
  simp only [sendEnds, List.any_eq_true]
  constructor
  · rintro ⟨x, hx, h⟩
    refine ⟨x, hx, ?_⟩
    rintro ⟨h1, h2⟩
    obtain ⟨data, err⟩ := x
    cases h1
    match data, h2 with
    | a :: b :: c :: l, _ => simp [rawReadReport] at h
  · rintro ⟨x, hx, h⟩
    refine ⟨x, hx, ?_⟩
    obtain ⟨data, err⟩ := x
    cases err with
    | some e => simp [rawReadReport]
    | none =>
      match data with
      | [] => simp [rawReadReport]
      | [_] => simp [rawReadReport]
      | [_, _] => simp [rawReadReport]
      | a :: b :: c :: l => exact absurd ⟨rfl, by simp⟩ h

/-- C98, how `send` ends: never with success. -/
theorem C98_no_success {σ : Type} (D : Device σ) (s : Srv σ) (os : OS) (legacy : Bool) (env : Env) (args : List Bytes) (trace : Path) :
    (run D s os legacy env (.send args trace)).status ≠ .exit 0 := by
  by_cases h : ∃ l, Ready os (.send args trace) l
  · obtain ⟨l, h⟩ := h
    have e : (run D s os legacy env (.send args trace)).status = _ := congrArg Outcome.status (C88_opens D s os legacy env _ h).2.2
    rw [e, loop]
    simp only
    split <;> exact nofun
  · rcases (C88_refused D s os legacy env (.send args trace) fun l hl => h ⟨l, hl⟩).1 with h | ⟨h, _⟩ <;> rw [h] <;> exact nofun

theorem loop_send_status {σ : Type} (D : Device σ) (s : Srv σ) (os : OS) (legacy : Bool) (env : Env) (args : List Bytes) (trace : Path) :
    (loop D s os legacy env (.send args trace)).status = .exit 2 ↔
      (sending D s os legacy env (arg args 1)).dead (sendEnds (inputReads os (arg args 1) env.steps)) = true := by
  rw [loop]
  simp only
  split
  · exact ⟨fun _ => by assumption, fun _ => rfl⟩
  · exact ⟨nofun, fun h => absurd h (by assumption)⟩

/-- C98, when `send` ends. With everything opened, and the goroutines taking turns suitably, it ends (with status 2) iff the server
panics on the device's answers, or the server has come to the end of them and the loop to the end of the trace. -/
theorem C98_ends_iff {σ : Type} (D : Device σ) (s : Srv σ) (os : OS) (legacy : Bool) (env : Env) (args : List Bytes) (trace p : Path)
    {l : List (How × Path)} (h : Ready os (.send args trace) l) (hp : Given args 1 p) :
    (∃ schedule, (run D s os legacy { env with schedule } (.send args trace)).status = .exit 2) ↔
      observed D env.clock env.grow (if legacy then legacyReportDefs else defaultReportDefs) env.reads s = .panic ∨
      (∃ l, observed D env.clock env.grow (if legacy then legacyReportDefs else defaultReportDefs) env.reads s = .ret (l, false)) ∧
        ∃ x ∈ inputReads os p env.steps, ¬ IsReport x := by
  obtain ⟨rfl, _⟩ := (given_iff _ _ _).1 hp
  have e : ∀ schedule, (run D s os legacy { env with schedule } (.send args trace)).status =
      (loop D s os legacy { env with schedule } (.send args trace)).status :=
    fun schedule => congrArg Outcome.status (C88_opens D s os legacy { env with schedule } _ h).2.2
  simp only [e, loop_send_status, ← sendEnds_iff]
  generalize sendEnds (inputReads os (arg args 1) env.steps) = ends
  simp only [sending]
  generalize List.map _ (sendLoop (inputReads os (arg args 1) env.steps)).zipIdx = writes
  change (∃ schedule, ((Sending.start s env.reads writes).run D env.clock env.grow (table legacy) schedule).dead ends = true) ↔
    observed D env.clock env.grow (table legacy) env.reads s = .panic ∨
      (∃ l, observed D env.clock env.grow (table legacy) env.reads s = .ret (l, false)) ∧ ends = true
  simp only [Sending.dead, Bool.or_eq_true, Bool.and_eq_true, List.isEmpty_iff, Option.isNone_iff_eq_none]
  constructor
  · rintro ⟨schedule, hc | ⟨⟨⟨h1, h2⟩, h3⟩, h4⟩⟩
    · exact .inl ((C98_crashed_iff D env.clock env.grow (table legacy) s env.reads writes).1 ⟨schedule, hc⟩)
    · obtain ⟨dealt, d1, d2, _, d4⟩ := C98_server D env.clock env.grow (table legacy) s env.reads writes schedule
      cases hc : ((Sending.start s env.reads writes).run D env.clock env.grow (table legacy) schedule).crashed with
      | true => exact .inl ((C98_crashed_iff D env.clock env.grow (table legacy) s env.reads writes).1 ⟨schedule, hc⟩)
      | false =>
        obtain ⟨l, hl⟩ := d4 hc h4
        refine .inr ⟨⟨l, ?_⟩, h1⟩
        rw [observed, d1, List.append_assoc, run_append, show Live.run D env.clock env.grow (table legacy) dealt (Live.start s) = _ from hl]
        rfl
  · rintro (hc | ⟨⟨l, hl⟩, h1⟩)
    · obtain ⟨schedule, hc⟩ := (C98_crashed_iff D env.clock env.grow (table legacy) s env.reads writes).2 hc
      exact ⟨schedule, .inl hc⟩
    · obtain ⟨sch, _, h2⟩ := server_alone D env.clock env.grow (table legacy) env.reads (Live.start s) (Duplex.start env.reads writes) rfl rfl
      obtain ⟨c, n⟩ := h2 l hl
      have more : ∀ (k : Nat) (x : Sending σ), x.crashed = false → x.server = none →
          (x.run D env.clock env.grow (table legacy) (List.replicate k true)).crashed = false ∧
          (x.run D env.clock env.grow (table legacy) (List.replicate k true)).server = none := by
        intro k
        induction k with
        | zero => exact fun x h1 h2 => ⟨h1, h2⟩
        | succ k ih =>
          intro x h1 h2
          rw [List.replicate_succ, Sending.run, List.foldl_cons]
          refine ih _ ?_ ?_ <;> rw [Sending.step.eq_def, if_neg (by simp [h1])]
          · exact h1
          · exact h2
      obtain ⟨c', n'⟩ := more (2 * writes.length) _ c n
      have e3 : (Sending.start s env.reads writes).run D env.clock env.grow (table legacy) (sch ++ List.replicate (2 * writes.length) true) =
          Sending.run D env.clock env.grow (table legacy) (Sending.run D env.clock env.grow (table legacy)
            ⟨Duplex.start env.reads writes, some (Live.start s), false⟩ sch) (List.replicate (2 * writes.length) true) := by
        rw [Sending.run, List.foldl_append]; rfl
      have hc : ((Sending.start s env.reads writes).run D env.clock env.grow (table legacy)
          (sch ++ List.replicate (2 * writes.length) true)).crashed = false := by rw [e3]; exact c'
      obtain ⟨⟨m1, m2⟩, _⟩ := C98_complete_partial D env.clock env.grow (table legacy) s env.reads writes _ (by simp) hc
      exact ⟨_, .inr ⟨⟨⟨h1, m1⟩, m2⟩, by rw [e3]; exact n'⟩⟩

/-- C98 is false: after the first report a device answers with six bytes, and no other report is ever sent. -/
theorem C98_fails {σ : Type} (D : Device σ) (clock : Clock) (grow : Growth) (dev : σ) (p : Bytes) (writes : List (Bytes × Trace.WriteRes))
    (more : List Bool) :
    let s := (Sending.start (Srv.init dev) [⟨[0x01, 0x00, 0x55, 0xff, 0x01, 0x02], none⟩] ((p, ⟨p.length, none⟩) :: writes)).run D clock grow
      defaultReportDefs ([true, true, false, false] ++ more)
    s.crashed = true ∧ given s.duplex.events = [p] ∧ s.duplex.writes = writes := by
  have hp : (Live.start (Srv.init dev)).onRead D clock grow defaultReportDefs ⟨[0x01, 0x00, 0x55, 0xff, 0x01, 0x02], none⟩ = .panic := by
    have h := C54_fails D clock grow dev
    rw [← C74_online D clock grow defaultReportDefs (by decide)] at h
    simp only [observed, Live.run] at h
    cases ho : (Live.start (Srv.init dev)).onRead D clock grow defaultReportDefs ⟨[0x01, 0x00, 0x55, 0xff, 0x01, 0x02], none⟩ with
    | panic => rfl
    | ret x =>
      rw [ho] at h
      cases x <;> cases h
  intro s
  have e : (Sending.start (Srv.init dev) [⟨[0x01, 0x00, 0x55, 0xff, 0x01, 0x02], none⟩] ((p, ⟨p.length, none⟩) :: writes)).run D clock grow
      defaultReportDefs [true, true, false, false] = Sending.took ⟨⟨[], writes, none, none, [(1, p.take p.length), (0, [0x01, 0x00, 0x55, 0xff, 0x01, 0x02])],
        (Trace.writeMsg (Trace.writeMsg [] ⟨Trace.dirOut, 0, p.take p.length⟩).1 ⟨Trace.dirIn, 0, [0x01, 0x00, 0x55, 0xff, 0x01, 0x02]⟩).1⟩,
        some (Live.start (Srv.init dev)), false⟩
        ((Live.start (Srv.init dev)).onRead D clock grow defaultReportDefs ⟨[0x01, 0x00, 0x55, 0xff, 0x01, 0x02], none⟩) := rfl
  have e2 := e
  rw [hp] at e2
  have e3 : s = (Sending.start (Srv.init dev) [⟨[0x01, 0x00, 0x55, 0xff, 0x01, 0x02], none⟩] ((p, ⟨p.length, none⟩) :: writes)).run D clock
      grow defaultReportDefs [true, true, false, false] := by
    rw [show s = Sending.run D clock grow defaultReportDefs ((Sending.start (Srv.init dev) [⟨[0x01, 0x00, 0x55, 0xff, 0x01, 0x02], none⟩]
      ((p, ⟨p.length, none⟩) :: writes)).run D clock grow defaultReportDefs [true, true, false, false]) more from List.foldl_append]
    refine sending_crashed D clock grow defaultReportDefs ?_ more
    rw [e2]; rfl
  rw [e3, e2]
  refine ⟨rfl, ?_, rfl⟩
  simp [Sending.took, given]

/-- Three reports sent, the second refused, to a device that answers one of them; `C98_complete_partial`, `C98_independent`. -/
example :
    let s := Sending.run devGeneral (fun _ => ⟨2024, 1, 2, 3, 4⟩) (fun _ n => n) defaultReportDefs
      (Sending.start (Srv.init DevGeneral.zero) [⟨[0x01, 0x00, 0x55, 0x02, 0x00, 0x07, 0xF7], none⟩]
        [([1, 0, 0x55], ⟨3, none⟩), ([1, 0, 0x56], ⟨0, some (.other 5)⟩), ([1, 0, 0x57], ⟨3, none⟩)])
      [true, false, true, false, true, true, true, true]
    s.crashed = false ∧ given s.duplex.events = [[1, 0, 0x55], [1, 0, 0x57]] := by decide +kernel

/-- The hypotheses of `C98_ends_iff`. -/
example : ∃ os : OS, Ready os (.send [[0x64], [0x74]] []) [(.device, [0x64]), (.input, [0x74])] ∧ Given [[0x64], [0x74]] 1 [0x74] := by
  refine ⟨⟨fun p => if p = [0x64] then some .device else some (.file [] none), fun _ _ => none, fun _ => false⟩,
    .send ⟨rfl, by decide⟩ ⟨rfl, by decide⟩ ⟨rfl, by decide, rfl⟩ ⟨rfl, by decide⟩, rfl, by decide⟩

end Props
