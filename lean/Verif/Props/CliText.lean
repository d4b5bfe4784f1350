import Verif.Spec.CliText
import Verif.Props.Cli

/-! Properties of what the commands say when they begin (C105). -/

namespace Props
open Go Spec Ipod Ipod.Hid Ipod.Trace Ipod.Log Ipod.Cli

theorem logged_append (a b : List Ev) : logged (a ++ b) = logged a ++ logged b := by simp [logged]

/-- The outcome of a step, as the rest sees it: either the rest follows, or not. -/
def StepGoes (os : OS) (txt : Path → Err → Bytes) (st : Step) (x : List Ev × ResT) : Prop :=
  ∀ steps,
    (x.2 = .ok ∧ ∀ ls e, SetsOff os txt steps ls e → SetsOff os txt (st :: steps) (logged x.1 ++ ls) e) ∨
    (x.2 ≠ .ok ∧ SetsOff os txt (st :: steps) (logged x.1) (endOf x.2 (complaint x.2)))

theorem complaint_error (t : Bytes) : complaint (.error t) = ascii "error: " ++ t ++ ascii "\n\n" := rfl

theorem startDeviceT_goes (os : OS) (txt : Path → Err → Bytes) (p : Path) (hn : ∀ how p, os.refused how p ≠ some notCharDevice) :
    StepGoes os txt (.opens .device p) (startDeviceT os txt p) := by
  intro steps
  unfold startDeviceT openDevice openFile
  cases h1 : os.refused .device p with
  | some e =>
    have he : e ≠ notCharDevice := fun h => hn _ _ (h ▸ h1)
    refine .inr ⟨by simp [openingT], ?_⟩
    have := SetsOff.fails (steps := steps) (CannotOpen.refused (txt := txt) h1 he)
    simpa [openingT, faultText, he, logged, endOf, complaint_error, errorLevel, badMsg] using this
  | none =>
    cases h2 : os.node p with
    | none =>
      refine .inr ⟨by simp [openingT], ?_⟩
      have := SetsOff.fails (steps := steps) (CannotOpen.missing (txt := txt) h1 h2 (by decide))
      simpa [openingT, faultText, logged, endOf, complaint_error, errorLevel, badMsg] using this
    | some n =>
      cases h3 : os.statFails p with
      | true =>
        refine .inr ⟨by simp [openingT], ?_⟩
        have := SetsOff.crash (steps := steps) (txt := txt) (StatFails.mk h1 (by rw [h2]; simp) h3)
        simpa [openingT, logged, endOf] using this
      | false =>
        cases n with
        | device =>
          refine .inl ⟨by simp [openingT], fun ls e h => ?_⟩
          have := SetsOff.opened (how := .device) (level := infoLevel) (msg := "device opened") (DeviceOpens.mk h1 h2 h3) rfl h
          simpa [openingT, logged] using this
        | file content ending =>
          refine .inr ⟨by simp [openingT], ?_⟩
          have := SetsOff.fails (steps := steps) (CannotOpen.file (txt := txt) h1 rfl h3 h2)
          simpa [openingT, faultText, logged, endOf, complaint_error, errorLevel, badMsg] using this

theorem startInputT_goes (os : OS) (txt : Path → Err → Bytes) (p : Path) (hn : ∀ how p, os.refused how p ≠ some notCharDevice) :
    StepGoes os txt (.opens .input p) (startInputT os txt p) := by
  intro steps
  unfold startInputT openTraceFile openFile
  cases h1 : os.refused .input p with
  | some e =>
    have he : e ≠ notCharDevice := fun h => hn _ _ (h ▸ h1)
    refine .inr ⟨by simp [openingT], ?_⟩
    have := SetsOff.fails (steps := steps) (CannotOpen.refused (txt := txt) h1 he)
    simpa [openingT, faultText, he, logged, endOf, complaint_error, errorLevel, badMsg] using this
  | none =>
    cases h2 : os.node p with
    | none =>
      refine .inr ⟨by simp [openingT], ?_⟩
      have := SetsOff.fails (steps := steps) (CannotOpen.missing (txt := txt) h1 h2 (by decide))
      simpa [openingT, faultText, logged, endOf, complaint_error, errorLevel, badMsg] using this
    | some n =>
      refine .inl ⟨by simp [openingT], fun ls e h => ?_⟩
      have := SetsOff.opened (how := .input) (level := warnLevel) (msg := "trace file opened") (InputOpens.mk h1 (by rw [h2]; simp)) rfl h
      simpa [openingT, logged] using this

theorem startTraceT_goes (os : OS) (txt : Path → Err → Bytes) (p : Path) (hp : p ≠ [])
    (hn : ∀ how p, os.refused how p ≠ some notCharDevice) : StepGoes os txt (.opens .create p) (startTraceT os txt p) := by
  intro steps
  unfold startTraceT
  rw [if_pos hp]
  cases h1 : os.refused .create p with
  | some e =>
    have he : e ≠ notCharDevice := fun h => hn _ _ (h ▸ h1)
    have hN : newTraceFile os p = ([], .error e) := by rw [newTraceFile, openFile, h1]
    rw [hN]
    refine .inr ⟨by simp [openingT], ?_⟩
    have := SetsOff.fails (steps := steps) (CannotOpen.refused (txt := txt) h1 he)
    simpa [openingT, faultText, he, logged, endOf, complaint_error, errorLevel, badMsg] using this
  | none =>
    have hN : newTraceFile os p = ([.opened .create p], .ok ()) := by
      rw [newTraceFile, openFile, h1]
      cases os.node p <;> rfl
    rw [hN]
    refine .inl ⟨by simp [openingT], fun ls e h => ?_⟩
    have := SetsOff.opened (how := .create) (level := warnLevel) (msg := "writing trace") h1 rfl h
    simpa [openingT, logged] using this

/-- One step, and the rest. -/
theorem goes_then {os : OS} {txt : Path → Err → Bytes} {st : Step} {x y : List Ev × ResT} {steps : List Step}
    (hx : StepGoes os txt st x) (hy : SetsOff os txt steps (logged y.1) (endOf y.2 (complaint y.2))) :
    SetsOff os txt (st :: steps) (logged (andThenT x y).1) (endOf (andThenT x y).2 (complaint (andThenT x y).2)) := by
  obtain ⟨evs, r⟩ := x
  rcases hx steps with ⟨h1, h2⟩ | ⟨h1, h2⟩
  · cases (h1 : r = .ok)
    have := h2 _ _ hy
    rw [← logged_append] at this
    exact this
  · cases r with
    | ok => exact absurd rfl h1
    | usage t => exact h2
    | error t => exact h2
    | panic => exact h2

theorem goes_last {os : OS} {txt : Path → Err → Bytes} {st : Step} {x : List Ev × ResT} (hx : StepGoes os txt st x) :
    SetsOff os txt [st] (logged x.1) (endOf x.2 (complaint x.2)) := by
  rcases hx [] with ⟨h1, h2⟩ | ⟨h1, h2⟩
  · have := h2 _ _ .done
    rw [List.append_nil] at this
    rw [h1]
    exact this
  · exact h2

theorem goes_trace (os : OS) (txt : Path → Err → Bytes) : SetsOff os txt [] (logged (startTraceT os txt []).1)
    (endOf (startTraceT os txt []).2 (complaint (startTraceT os txt []).2)) := .done

/-- C105. Before its loop a command takes its steps in order, up to the first that fails: it logs each thing it opens with its path,
and the one it cannot open, with the reason; and that reason, or what argument is missing, is what standard error gets. -/
theorem C105_begins (os : OS) (txt : Path → Err → Bytes) {cmd : Cmd} {steps : List Step} (h : Steps cmd steps)
    (hn : ∀ how p, os.refused how p ≠ some notCharDevice) :
    SetsOff os txt steps (logged (startT os txt cmd).1) (endOf (startT os txt cmd).2 (complaint (startT os txt cmd).2)) := by
  have hdev : ∀ args rest y, SetsOff os txt rest (logged y.1) (endOf y.2 (complaint y.2)) →
      let z : List Ev × ResT := if arg args 0 = [] then ([], .usage noDevice) else andThenT (startDeviceT os txt (arg args 0)) y
      SetsOff os txt (.need args 0 "device path is missing" :: .opens .device (arg args 0) :: rest) (logged z.1)
        (endOf z.2 (complaint z.2)) := by
    intro args rest y hy
    by_cases h0 : arg args 0 = []
    · simp only [if_pos h0]
      exact .missing (given_none h0)
    · simp only [if_neg h0]
      exact .given (given_ne h0) (goes_then (startDeviceT_goes os txt _ hn) hy)
  have hin : ∀ args, let z : List Ev × ResT := if arg args 0 = [] then ([], .usage noInput) else startInputT os txt (arg args 0)
      SetsOff os txt [.need args 0 "trace file path is missing", .opens .input (arg args 0)] (logged z.1) (endOf z.2 (complaint z.2)) := by
    intro args
    by_cases h0 : arg args 0 = []
    · simp only [if_pos h0]
      exact .missing (given_none h0)
    · simp only [if_neg h0]
      exact .given (given_ne h0) (goes_last (startInputT_goes os txt _ hn))
  have hin1 : ∀ args rest y, SetsOff os txt rest (logged y.1) (endOf y.2 (complaint y.2)) →
      let z : List Ev × ResT := if arg args 1 = [] then ([], .usage noInput) else andThenT (startInputT os txt (arg args 1)) y
      SetsOff os txt (.need args 1 "trace file path is missing" :: .opens .input (arg args 1) :: rest) (logged z.1)
        (endOf z.2 (complaint z.2)) := by
    intro args rest y hy
    by_cases h0 : arg args 1 = []
    · simp only [if_pos h0]
      exact .missing (given_none h0)
    · simp only [if_neg h0]
      exact .given (given_ne h0) (goes_then (startInputT_goes os txt _ hn) hy)
  cases h with
  | lingos => exact .done
  | serve => exact hdev _ _ _ (goes_trace os txt)
  | serveTraced ht => exact hdev _ _ _ (goes_last (startTraceT_goes os txt _ ht hn))
  | replay => exact hin _
  | view => exact hin _
  | send => exact hdev _ _ _ (hin1 _ _ _ (goes_trace os txt))
  | sendTraced ht => exact hdev _ _ _ (hin1 _ _ _ (goes_last (startTraceT_goes os txt _ ht hn)))

/-- Every command has its steps. -/
theorem steps_total (cmd : Cmd) : ∃ steps, Steps cmd steps := by
  cases cmd with
  | lingos => exact ⟨_, .lingos⟩
  | serve args trace =>
    by_cases h : trace = []
    · subst h; exact ⟨_, .serve⟩
    · exact ⟨_, .serveTraced h⟩
  | replay args => exact ⟨_, .replay⟩
  | view args => exact ⟨_, .view⟩
  | send args trace =>
    by_cases h : trace = []
    · subst h; exact ⟨_, .send⟩
    · exact ⟨_, .sendTraced h⟩

theorem cannot_unique {os : OS} {txt : Path → Err → Bytes} {how : How} {p : Path} {t t' : Bytes} (h : CannotOpen os txt how p t)
    (h' : CannotOpen os txt how p t') : t = t' := by
  cases h <;> cases h' <;> simp_all

theorem cannot_not {os : OS} {txt : Path → Err → Bytes} {how : How} {p : Path} {t : Bytes} (h : CannotOpen os txt how p t) :
    ¬ Opens os how p := by
  intro ho
  cases how <;> cases h <;> first
    | (have := ho.allowed; have := ho.device; simp_all)
    | (have := ho.allowed; have := ho.exist; simp_all)
    | (have : os.refused .create p = none := ho; simp_all)

theorem cannot_stat {os : OS} {txt : Path → Err → Bytes} {p : Path} {t : Bytes} (h : CannotOpen os txt .device p t) :
    ¬ StatFails os p := by
  intro ho
  have := ho.allowed; have := ho.exist; have := ho.stat
  cases h <;> simp_all

/-- What is said is determined by the steps. -/
theorem C105_one {os : OS} {txt : Path → Err → Bytes} {steps : List Step} {ls ls' : List Line} {e e' : End}
    (h : SetsOff os txt steps ls e) (h' : SetsOff os txt steps ls' e') : ls = ls' ∧ e = e' := by
  induction h generalizing ls' e' with
  | done => cases h'; exact ⟨rfl, rfl⟩
  | given hg _ ih =>
    cases h' with
    | given _ h2 => exact ih h2
    | missing h2 => exact absurd hg (h2 _)
  | missing hg =>
    cases h' with
    | given h1 h2 => exact absurd h1 (hg _)
    | missing h2 => exact ⟨rfl, rfl⟩
  | opened ho hm _ ih =>
    cases h' with
    | opened ho' hm' h2 =>
      obtain ⟨rfl, rfl⟩ := ih h2
      rw [hm] at hm'
      simp only [Prod.mk.injEq] at hm'
      obtain ⟨h3, rfl⟩ := hm'
      rw [UInt32.toNat_inj.1 h3]
      exact ⟨rfl, rfl⟩
    | fails hc => exact absurd ho (cannot_not hc)
    | crash hs =>
      have := hs.stat
      rw [ho.stat] at this
      cases this
  | fails hc =>
    cases h' with
    | opened ho => exact absurd ho (cannot_not hc)
    | fails hc' => cases cannot_unique hc hc'; exact ⟨rfl, rfl⟩
    | crash hs => exact absurd hs (cannot_stat hc)
  | crash hs =>
    cases h' with
    | opened ho =>
      have := hs.stat
      rw [ho.stat] at this
      cases this
    | fails hc' => exact absurd hs (cannot_stat hc')
    | crash => exact ⟨rfl, rfl⟩

theorem all_same (evs : List Ev) : ToldAll evs evs := by
  induction evs with
  | nil => exact .nil
  | cons e evs ih => exact .cons (.same e) ih

theorem told_append {a b a' b' : List Ev} (h : ToldAll a b) (h' : ToldAll a' b') :
    ToldAll (a ++ a') (b ++ b') := by
  induction h with
  | nil => exact h'
  | cons h1 _ ih => exact .cons h1 ih

/-- The two ways of telling how starting ended. -/
inductive SameEnd : Res Unit → ResT → Prop
  | ok : SameEnd (.ok ()) .ok
  | usage (t) : SameEnd .usage (.usage t)
  | error (e t) : SameEnd (.error e) (.error t)
  | panic : SameEnd .panic .panic

def SameStart (x : List Ev × Res Unit) (y : List Ev × ResT) : Prop := ToldAll x.1 y.1 ∧ SameEnd x.2 y.2

theorem same_opening (txt : Path → Err → Bytes) (x : List Ev × Res Unit) (p : Path) (okLevel : Level) (okMsg failMsg : String) :
    SameStart (opening x p okLevel okMsg failMsg) (openingT txt x p okLevel okMsg failMsg) := by
  obtain ⟨evs, r⟩ := x
  cases r with
  | ok u => exact ⟨told_append (all_same _) (.cons (.same _) .nil), .ok⟩
  | usage => exact ⟨all_same _, .usage _⟩
  | error e => exact ⟨told_append (all_same _) (.cons .error .nil), .error _ _⟩
  | panic => exact ⟨all_same _, .panic⟩

theorem same_then {x x' : List Ev × Res Unit} {y y' : List Ev × ResT} (h : SameStart x y) (h' : SameStart x' y') :
    SameStart (andThen x fun _ => x') (andThenT y y') := by
  obtain ⟨evs, r⟩ := x
  obtain ⟨evs', r'⟩ := y
  obtain ⟨h1, h2⟩ := h
  cases (h2 : SameEnd r r') with
  | ok => exact ⟨told_append h1 h'.1, h'.2⟩
  | usage t => exact ⟨h1, .usage _⟩
  | error e t => exact ⟨h1, .error _ _⟩
  | panic => exact ⟨h1, .panic⟩

theorem same_if {c : Prop} [Decidable c] {x x' : List Ev × Res Unit} {y y' : List Ev × ResT} (h : SameStart x y) (h' : SameStart x' y') :
    SameStart (if c then x else x') (if c then y else y') := by
  by_cases hc : c
  · rw [if_pos hc, if_pos hc]; exact h
  · rw [if_neg hc, if_neg hc]; exact h'

theorem same_trace (os : OS) (txt : Path → Err → Bytes) (p : Path) : SameStart (startTrace os p) (startTraceT os txt p) :=
  same_if (same_opening _ _ _ _ _ _) ⟨.nil, .ok⟩

theorem same_start (os : OS) (txt : Path → Err → Bytes) (cmd : Cmd) : SameStart (start os cmd) (startT os txt cmd) := by
  cases cmd with
  | lingos => exact ⟨.nil, .ok⟩
  | serve args trace => exact same_if ⟨.nil, .usage _⟩ (same_then (same_opening _ _ _ _ _ _) (same_trace os txt trace))
  | replay args => exact same_if ⟨.nil, .usage _⟩ (same_opening _ _ _ _ _ _)
  | view args => exact same_if ⟨.nil, .usage _⟩ (same_opening _ _ _ _ _ _)
  | send args trace =>
    exact same_if ⟨.nil, .usage _⟩ (same_then (same_opening _ _ _ _ _ _)
      (same_if ⟨.nil, .usage _⟩ (same_then (same_opening _ _ _ _ _ _) (same_trace os txt trace))))

/-- C105. These are the events of the run of the command (C88), and standard error gets something exactly if the command ends with
status 1 before its loop; the usage is shown if it begins with "usage error". -/
theorem C105_same {σ : Type} (D : Device σ) (s : Srv σ) (os : OS) (legacy : Bool) (env : Env) (txt : Path → Err → Bytes) (cmd : Cmd) :
    let r := run D s os legacy env cmd
    let x := startT os txt cmd
    ToldAll r.evs x.1 ∧
    (match endOf x.2 (complaint x.2) with
      | .loop => complaint x.2 = [] ∧ r.toOutcome = loop D s os legacy env cmd ∧ r.usage = false
      | .crash => complaint x.2 = [] ∧ r.status = .exit 2 ∧ r.usage = false
      | .stderr t => r.status = .exit 1 ∧ (r.usage = true ↔ ascii "usage error: " <+: t)) := by
  have h := same_start os txt cmd
  simp only [run]
  generalize start os cmd = a at h
  generalize startT os txt cmd = b at h
  obtain ⟨evs, r⟩ := a
  obtain ⟨evs', r'⟩ := b
  obtain ⟨h1, h2⟩ := h
  cases (h2 : SameEnd r r') with
  | ok => exact ⟨h1, rfl, rfl, rfl⟩
  | usage t => exact ⟨h1, rfl, iff_of_true rfl ⟨t ++ [0x0A, 0x0A], by simp [complaint]⟩⟩
  | error e t =>
    refine ⟨h1, rfl, iff_of_false (by simp) ?_⟩
    rintro ⟨u, hu⟩
    have h5 : ascii "usage error: " = 0x75 :: ascii "sage error: " := by decide
    have h6 : ascii "error: " = 0x65 :: ascii "rror: " := by decide
    simp only [complaint] at hu
    rw [h5, h6] at hu
    cases hu
  | panic => exact ⟨h1, rfl, rfl, rfl⟩

/-- A file given in place of the device. -/
example : let os : OS := ⟨fun p => if p = [0x66] then some (.file [] none) else none, fun _ _ => none, fun _ => false⟩
    startT os (fun _ _ => ascii "no such file or directory") (.serve [[0x66]] [0x74]) =
      ([.opened .device [0x66], .log ⟨2, ascii "could not open the device", [("path", .text [0x66]), ("error", .text (ascii "not a char device"))]⟩],
        .error (ascii "not a char device")) ∧
    complaint (startT os (fun _ _ => ascii "no such file or directory") (.send [[0x66], [0x66]] [])).2 = ascii "error: not a char device\n\n" ∧
    complaint (startT os (fun _ _ => ascii "no such file or directory") (.view [])).2 = ascii "usage error: trace file path is missing\n\n" := by
  decide +kernel

/-- The device and the trace are opened, the new trace cannot be created. -/
example : let os : OS := ⟨fun p => if p = [0x64] then some .device else if p = [0x66] then some (.file [] none) else none,
      fun how _ => if how = .create then some (.other 30) else none, fun _ => false⟩
    logged (startT os (fun _ _ => ascii "permission denied") (.send [[0x64], [0x66]] [0x74])).1 =
      [⟨4, ascii "device opened", [("path", .text [0x64])]⟩, ⟨3, ascii "trace file opened", [("path", .text [0x66])]⟩,
       ⟨2, ascii "could not create a trace file", [("path", .text [0x74]), ("error", .text (ascii "permission denied"))]⟩] ∧
    (∀ how p, os.refused how p ≠ some notCharDevice) ∧
    ∃ steps, Steps (.send [[0x64], [0x66]] [0x74]) steps := by
  refine ⟨by decide +kernel, fun how p => ?_, _, .sendTraced (by decide)⟩
  cases how <;> simp [notCharDevice]

end Props
