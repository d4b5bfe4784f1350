import Verif.Spec.Cli
import Verif.Props.Record
import Verif.Props.TraceFile

/-! Properties of the commands of the program (C88). -/

namespace Props
open Go Spec Ipod Ipod.Hid Ipod.Trace Ipod.Cli

theorem given_iff (args : List Bytes) (n : Nat) (p : Path) : Given args n p ↔ arg args n = p ∧ p ≠ [] := by
  unfold Given arg
  rw [List.getD_eq_getElem?_getD]
  cases h : args[n]? with
  | none => simp
  | some q => simp

theorem given_ne {args : List Bytes} {n : Nat} (h : arg args n ≠ []) : Given args n (arg args n) := (given_iff _ _ _).2 ⟨rfl, h⟩

theorem opened_append (a b : List Ev) : opened (a ++ b) = opened a ++ opened b := by simp [opened]

/-- The three outcomes of opening the device. -/
theorem startDevice_cases (os : OS) (p : Path) :
    (DeviceOpens os p ∧ ∃ evs, startDevice os p = (evs, .ok ()) ∧ opened evs = [(.device, p)]) ∨
    (¬ DeviceOpens os p ∧ ¬ StatFails os p ∧ ∃ evs e, startDevice os p = (evs, .error e) ∧
      (opened evs = [] ∨ opened evs = [(.device, p)])) ∨
    (StatFails os p ∧ ∃ evs, startDevice os p = (evs, .panic) ∧ opened evs = [(.device, p)]) := by
  unfold startDevice openDevice openFile
  cases h1 : os.refused .device p with
  | some e =>
    exact .inr (.inl ⟨fun h => (by rw [h.allowed] at h1; cases h1), fun h => (by rw [h.allowed] at h1; cases h1), _, _, rfl, .inl rfl⟩)
  | none =>
    cases h2 : os.node p with
    | none =>
      exact .inr (.inl ⟨fun h => (by rw [h.device] at h2; cases h2), fun h => h.exist h2, _, _, rfl, .inl rfl⟩)
    | some n =>
      cases h3 : os.statFails p with
      | true =>
        refine .inr (.inr ⟨⟨h1, by rw [h2]; simp, h3⟩, ?_⟩)
        simp only [↓reduceIte, opening]
        exact ⟨_, rfl, rfl⟩
      | false =>
        simp only [Bool.false_eq_true, ↓reduceIte, Option.some.injEq]
        by_cases h4 : n = .device
        · rw [if_pos h4]
          exact .inl ⟨⟨h1, by rw [h2, h4], h3⟩, _, rfl, rfl⟩
        · rw [if_neg h4]
          refine .inr (.inl ⟨fun h => h4 (by have := h.device; rw [h2] at this; exact Option.some.inj this), fun h => ?_, _, _, rfl, .inr rfl⟩)
          have := h.stat
          rw [h3] at this
          cases this

/-- The two outcomes of opening a trace to be read. -/
theorem startInput_cases (os : OS) (p : Path) :
    (InputOpens os p ∧ ∃ evs, startInput os p = (evs, .ok ()) ∧ opened evs = [(.input, p)]) ∨
    (¬ InputOpens os p ∧ ∃ evs e, startInput os p = (evs, .error e) ∧ opened evs = []) := by
  unfold startInput openTraceFile openFile
  cases h1 : os.refused .input p with
  | some e => exact .inr ⟨fun h => (by rw [h.allowed] at h1; cases h1), _, _, rfl, rfl⟩
  | none =>
    cases h2 : os.node p with
    | none => exact .inr ⟨fun h => h.exist h2, _, _, rfl, rfl⟩
    | some n => exact .inl ⟨⟨h1, by rw [h2]; simp⟩, _, rfl, rfl⟩

/-- The outcomes of opening the trace to be written. -/
theorem startTrace_cases (os : OS) (p : Path) :
    (p = [] ∧ startTrace os p = ([], .ok ())) ∨
    (p ≠ [] ∧ os.refused .create p = none ∧ ∃ evs, startTrace os p = (evs, .ok ()) ∧ opened evs = [(.create, p)]) ∨
    (p ≠ [] ∧ os.refused .create p ≠ none ∧ ∃ evs e, startTrace os p = (evs, .error e) ∧ opened evs = []) := by
  by_cases h : p = []
  · exact .inl ⟨h, by rw [startTrace, if_neg (by simpa using h)]⟩
  · rw [startTrace, if_pos h]
    unfold newTraceFile openFile
    cases h1 : os.refused .create p with
    | some e => exact .inr (.inr ⟨h, by simp, _, _, rfl, rfl⟩)
    | none =>
      cases h2 : os.node p with
      | none => exact .inr (.inl ⟨h, rfl, _, rfl, rfl⟩)
      | some n => exact .inr (.inl ⟨h, rfl, _, rfl, rfl⟩)

theorem given_none {args : List Bytes} {n : Nat} (h : arg args n = []) (p : Path) : ¬ Given args n p := by
  intro hg
  obtain ⟨rfl, h2⟩ := (given_iff _ _ _).1 hg
  exact h2 h

/-- What opening everything comes to: it is all there; or an argument is missing; or something cannot be opened; or `Stat` fails.
In the last three cases nothing is created. -/
theorem start_cases (os : OS) (cmd : Cmd) :
    (∃ evs l, start os cmd = (evs, .ok ()) ∧ Ready os cmd l ∧ opened evs = l) ∨
    ((∀ l, ¬ Ready os cmd l) ∧ ∃ evs, (∀ p, (How.create, p) ∉ opened evs) ∧
      ((start os cmd = (evs, .usage) ∧ ¬ Complete cmd) ∨ (∃ e, start os cmd = (evs, .error e)) ∨
        (start os cmd = (evs, .panic) ∧ ∃ args trace dev, (cmd = .serve args trace ∨ cmd = .send args trace) ∧ Given args 0 dev ∧
          StatFails os dev))) := by
  cases cmd with
  | lingos => exact .inl ⟨[], [], rfl, .lingos, rfl⟩
  | serve args trace =>
    by_cases h0 : arg args 0 = []
    · refine .inr ⟨fun l h => ?_, [], by simp [opened], .inl ⟨by simp [start, h0], fun ⟨p, h⟩ => given_none h0 p h⟩⟩
      cases h with
      | serve hg => exact given_none h0 _ hg
      | serveTraced hg => exact given_none h0 _ hg
    · have hg := given_ne h0
      have hd : ∀ l, Ready os (.serve args trace) l → DeviceOpens os (arg args 0) := by
        intro l h
        cases h with
        | serve hg hd => rw [((given_iff _ _ _).1 hg).1]; exact hd
        | serveTraced hg hd => rw [((given_iff _ _ _).1 hg).1]; exact hd
      simp only [start, if_neg h0]
      rcases startDevice_cases os (arg args 0) with ⟨h1, evs, h2, h3⟩ | ⟨h1, h1', evs, e, h2, h3⟩ | ⟨h1, evs, h2, h3⟩
      · rw [h2]
        simp only [andThen]
        rcases startTrace_cases os trace with ⟨rfl, h4⟩ | ⟨h4, h5, evs', h6, h7⟩ | ⟨h4, h5, evs', e, h6, h7⟩
        · rw [h4]
          exact .inl ⟨_, _, rfl, .serve hg h1, by simp [h3]⟩
        · rw [h6]
          exact .inl ⟨_, _, rfl, .serveTraced hg h1 h4 h5, by simp [opened_append, h3, h7]⟩
        · rw [h6]
          refine .inr ⟨fun l h => ?_, evs ++ evs', by simp [opened_append, h3, h7], .inr (.inl ⟨e, rfl⟩)⟩
          cases h with
          | serve => exact h4 rfl
          | serveTraced _ _ _ h => exact h5 h
      · rw [h2]
        refine .inr ⟨fun l h => h1 (hd l h), evs, ?_, .inr (.inl ⟨e, rfl⟩)⟩
        rcases h3 with h3 | h3 <;> simp [h3]
      · rw [h2]
        refine .inr ⟨fun l h => ?_, evs, by simp [h3], .inr (.inr ⟨rfl, args, trace, _, .inl rfl, hg, h1⟩)⟩
        have := (hd l h).stat
        rw [h1.stat] at this
        cases this
  | replay args =>
    by_cases h0 : arg args 0 = []
    · refine .inr ⟨fun l h => ?_, [], by simp [opened], .inl ⟨by simp [start, h0], fun ⟨p, h⟩ => given_none h0 p h⟩⟩
      cases h with
      | replay hg => exact given_none h0 _ hg
    · have hg := given_ne h0
      simp only [start, if_neg h0]
      rcases startInput_cases os (arg args 0) with ⟨h1, evs, h2, h3⟩ | ⟨h1, evs, e, h2, h3⟩
      · exact .inl ⟨evs, _, h2, .replay hg h1, h3⟩
      · refine .inr ⟨fun l h => ?_, evs, by simp [h3], .inr (.inl ⟨e, h2⟩)⟩
        cases h with
        | replay hg hi => rw [((given_iff _ _ _).1 hg).1] at h1; exact h1 hi
  | view args =>
    by_cases h0 : arg args 0 = []
    · refine .inr ⟨fun l h => ?_, [], by simp [opened], .inl ⟨by simp [start, h0], fun ⟨p, h⟩ => given_none h0 p h⟩⟩
      cases h with
      | view hg => exact given_none h0 _ hg
    · have hg := given_ne h0
      simp only [start, if_neg h0]
      rcases startInput_cases os (arg args 0) with ⟨h1, evs, h2, h3⟩ | ⟨h1, evs, e, h2, h3⟩
      · exact .inl ⟨evs, _, h2, .view hg h1, h3⟩
      · refine .inr ⟨fun l h => ?_, evs, by simp [h3], .inr (.inl ⟨e, h2⟩)⟩
        cases h with
        | view hg hi => rw [((given_iff _ _ _).1 hg).1] at h1; exact h1 hi
  | send args trace =>
    by_cases h0 : arg args 0 = []
    · refine .inr ⟨fun l h => ?_, [], by simp [opened], .inl ⟨by simp [start, h0], fun ⟨⟨p, h⟩, _⟩ => given_none h0 p h⟩⟩
      cases h with
      | send hg => exact given_none h0 _ hg
      | sendTraced hg => exact given_none h0 _ hg
    · have hg := given_ne h0
      have hd : ∀ l, Ready os (.send args trace) l → DeviceOpens os (arg args 0) ∧ Given args 1 (arg args 1) ∧ InputOpens os (arg args 1) := by
        intro l h
        cases h with
        | send hg hg' hd hi =>
          have e0 := ((given_iff _ _ _).1 hg).1
          have e1 := ((given_iff _ _ _).1 hg').1
          rw [e0, e1]; exact ⟨hd, hg', hi⟩
        | sendTraced hg hg' hd hi =>
          have e0 := ((given_iff _ _ _).1 hg).1
          have e1 := ((given_iff _ _ _).1 hg').1
          rw [e0, e1]; exact ⟨hd, hg', hi⟩
      simp only [start, if_neg h0]
      rcases startDevice_cases os (arg args 0) with ⟨h1, evs, h2, h3⟩ | ⟨h1, h1', evs, e, h2, h3⟩ | ⟨h1, evs, h2, h3⟩
      · rw [h2]
        simp only [andThen]
        by_cases h8 : arg args 1 = []
        · simp only [if_pos h8]
          exact .inr ⟨fun l h => given_none h8 _ (hd l h).2.1, evs ++ [], by simp [h3], .inl ⟨rfl, fun ⟨_, p, h⟩ => given_none h8 p h⟩⟩
        · have hg' := given_ne h8
          simp only [if_neg h8]
          rcases startInput_cases os (arg args 1) with ⟨i1, evi, i2, i3⟩ | ⟨i1, evi, e, i2, i3⟩
          · rw [i2]
            simp only
            rcases startTrace_cases os trace with ⟨rfl, h4⟩ | ⟨h4, h5, evs', h6, h7⟩ | ⟨h4, h5, evs', e, h6, h7⟩
            · rw [h4]
              exact .inl ⟨_, _, rfl, .send hg hg' h1 i1, by simp [opened_append, h3, i3]⟩
            · rw [h6]
              exact .inl ⟨_, _, rfl, .sendTraced hg hg' h1 i1 h4 h5, by simp [opened_append, h3, i3, h7]⟩
            · rw [h6]
              refine .inr ⟨fun l h => ?_, evs ++ (evi ++ evs'), by simp [opened_append, h3, i3, h7], .inr (.inl ⟨e, rfl⟩)⟩
              cases h with
              | send => exact h4 rfl
              | sendTraced _ _ _ _ _ h => exact h5 h
          · rw [i2]
            exact .inr ⟨fun l h => i1 (hd l h).2.2, evs ++ evi, by simp [opened_append, h3, i3], .inr (.inl ⟨e, rfl⟩)⟩
      · rw [h2]
        refine .inr ⟨fun l h => h1 (hd l h).1, evs, ?_, .inr (.inl ⟨e, rfl⟩)⟩
        rcases h3 with h3 | h3 <;> simp [h3]
      · rw [h2]
        refine .inr ⟨fun l h => ?_, evs, by simp [h3], .inr (.inr ⟨rfl, args, trace, _, .inr rfl, hg, h1⟩)⟩
        have := (hd l h).1.stat
        rw [h1.stat] at this
        cases this

theorem ready_unique {os : OS} {cmd : Cmd} {l l' : List (How × Path)} (h : Ready os cmd l) (h' : Ready os cmd l') : l = l' := by
  have key : ∀ {args : List Bytes} {n : Nat} {p q : Path}, Given args n p → Given args n q → p = q :=
    fun h1 h2 => Option.some.inj (h1.1.symm.trans h2.1)
  cases h with
  | lingos => cases h'; rfl
  | serve h1 =>
    cases h' with
    | serve h2 => rw [key h1 h2]
    | serveTraced _ _ h3 => exact absurd rfl h3
  | serveTraced h1 _ h3 =>
    cases h' with
    | serve => exact absurd rfl h3
    | serveTraced h2 => rw [key h1 h2]
  | replay h1 => cases h' with | replay h2 => rw [key h1 h2]
  | view h1 => cases h' with | view h2 => rw [key h1 h2]
  | send h1 h1' =>
    cases h' with
    | send h2 h2' => rw [key h1 h2, key h1' h2']
    | sendTraced _ _ _ _ h3 => exact absurd rfl h3
  | sendTraced h1 h1' _ _ h3 =>
    cases h' with
    | send => exact absurd rfl h3
    | sendTraced h2 h2' => rw [key h1 h2, key h1' h2']

/-- C88. A command whose arguments are all there and that can open everything it needs opens exactly that, in this order, and gets
to its loop, without showing the usage. -/
theorem C88_opens {σ : Type} (D : Device σ) (s : Srv σ) (os : OS) (legacy : Bool) (env : Env) (cmd : Cmd) {l : List (How × Path)}
    (h : Ready os cmd l) :
    opened (run D s os legacy env cmd).evs = l ∧ (run D s os legacy env cmd).usage = false ∧
      (run D s os legacy env cmd).toOutcome = loop D s os legacy env cmd := by
  rcases start_cases os cmd with ⟨evs, l', h1, h2, h3⟩ | ⟨h1, _⟩
  · rw [run, h1]
    exact ⟨h3.trans (ready_unique h2 h), rfl, rfl⟩
  · exact absurd h (h1 l)

/-- C88. Any other call ends with status 1, changes no file and creates none; only when `Stat` fails on the device it is a panic
(status 2), just as well without any change. -/
theorem C88_refused {σ : Type} (D : Device σ) (s : Srv σ) (os : OS) (legacy : Bool) (env : Env) (cmd : Cmd)
    (h : ∀ l, ¬ Ready os cmd l) :
    ((run D s os legacy env cmd).status = .exit 1 ∨ (run D s os legacy env cmd).status = .exit 2 ∧
      ∃ args trace dev, (cmd = .serve args trace ∨ cmd = .send args trace) ∧ Given args 0 dev ∧ StatFails os dev) ∧
    (run D s os legacy env cmd).files = os.node ∧ (run D s os legacy env cmd).frames = [] ∧
    (run D s os legacy env cmd).shown = [] ∧ ∀ p, (How.create, p) ∉ opened (run D s os legacy env cmd).evs := by
  rcases start_cases os cmd with ⟨evs, l', h1, h2, h3⟩ | ⟨_, evs, h1, ⟨h2, _⟩ | ⟨e, h2⟩ | ⟨h2, h3⟩⟩
  · exact absurd h2 (h l')
  · rw [run, h2]; exact ⟨.inl rfl, rfl, rfl, rfl, h1⟩
  · rw [run, h2]; exact ⟨.inl rfl, rfl, rfl, rfl, h1⟩
  · rw [run, h2]; exact ⟨.inr ⟨rfl, h3⟩, rfl, rfl, rfl, h1⟩

/-- C88, missing arguments. A call without its (first) argument shows the usage and ends with status 1, and nothing is opened.
Missing: `send` without its second argument (`C88_fails`). -/
theorem C88_missing_partial {σ : Type} (D : Device σ) (s : Srv σ) (os : OS) (legacy : Bool) (env : Env) (cmd : Cmd)
    (h : ¬ Complete cmd) (hs : ∀ args trace, cmd = .send args trace → ∀ p, ¬ Given args 0 p) :
    (run D s os legacy env cmd).usage = true ∧ (run D s os legacy env cmd).status = .exit 1 ∧ (run D s os legacy env cmd).evs = [] := by
  have key : ∀ {args : List Bytes}, (¬ ∃ p, Given args 0 p) → arg args 0 = [] := fun h =>
    Classical.byContradiction fun h0 => h ⟨_, given_ne h0⟩
  have : start os cmd = ([], .usage) := by
    cases cmd with
    | lingos => exact absurd trivial h
    | serve args trace => simp only [start, key h, ↓reduceIte]
    | replay args => simp only [start, key h, ↓reduceIte]
    | view args => simp only [start, key h, ↓reduceIte]
    | send args trace => simp only [start, key (fun ⟨p, hp⟩ => hs _ _ rfl p hp), ↓reduceIte]
  rw [run, this]
  exact ⟨rfl, rfl, rfl⟩

/-- C88 fails: `send` opens the device before it finds the second argument missing. -/
theorem C88_fails {σ : Type} (D : Device σ) (s : Srv σ) (os : OS) (legacy : Bool) (env : Env) (dev trace : Path) (h0 : dev ≠ [])
    (h : DeviceOpens os dev) :
    ¬ Complete (.send [dev] trace) ∧ (run D s os legacy env (.send [dev] trace)).usage = true ∧
      opened (run D s os legacy env (.send [dev] trace)).evs = [(.device, dev)] := by
  refine ⟨fun ⟨_, p, hp, _⟩ => by simp at hp, ?_⟩
  have e0 : arg [dev] 0 = dev := rfl
  have e1 : arg [dev] 1 = [] := rfl
  rcases startDevice_cases os dev with ⟨_, evs, h2, h3⟩ | ⟨h1, _⟩ | ⟨h1, _⟩
  · simp only [run, start, e0, e1, if_neg h0, h2, andThen, ↓reduceIte, List.append_nil]
    exact ⟨trivial, h3⟩
  · exact absurd h h1
  · have := h1.stat
    rw [h.stat] at this
    cases this

/-- C88, exactly when the usage is shown. -/
theorem C88_usage_iff {σ : Type} (D : Device σ) (s : Srv σ) (os : OS) (legacy : Bool) (env : Env) (cmd : Cmd) :
    (run D s os legacy env cmd).usage = true ↔
      ¬ Complete cmd ∧ ∀ args trace dev, cmd = .send args trace → Given args 0 dev → DeviceOpens os dev := by
  constructor
  · intro h
    rcases start_cases os cmd with ⟨evs, l', h1, _⟩ | ⟨_, evs, _, ⟨h2, h3⟩ | ⟨e, h2⟩ | ⟨h2, _⟩⟩
    · rw [run, h1] at h; cases h
    · refine ⟨h3, ?_⟩
      rintro args trace dev rfl hg
      obtain ⟨rfl, hne⟩ := (given_iff _ _ _).1 hg
      rw [start, if_neg hne] at h2
      rcases startDevice_cases os (arg args 0) with ⟨h1, _⟩ | ⟨_, _, evs, e, h4, _⟩ | ⟨_, evs, h4, _⟩
      · exact h1
      · rw [h4] at h2; cases h2
      · rw [h4] at h2; cases h2
    · rw [run, h2] at h; cases h
    · rw [run, h2] at h; cases h
  · rintro ⟨h, h'⟩
    by_cases hs : ∀ args trace, cmd = .send args trace → ∀ p, ¬ Given args 0 p
    · exact (C88_missing_partial D s os legacy env cmd h hs).1
    · cases cmd with
      | send args trace =>
        have hex : ∃ dev, Given args 0 dev := Classical.byContradiction fun hn => hs fun _ _ he p hp => by
          cases he
          exact hn ⟨p, hp⟩
        obtain ⟨dev, hg⟩ := hex
        have hd := h' _ _ dev rfl hg
        have h1 : arg args 1 = [] := Classical.byContradiction fun h1 => h ⟨⟨dev, hg⟩, _, given_ne h1⟩
        obtain ⟨rfl, hne⟩ := (given_iff _ _ _).1 hg
        rcases startDevice_cases os (arg args 0) with ⟨_, evs, h2, h3⟩ | ⟨h1, _⟩ | ⟨h1, _⟩
        · simp only [run, start, if_neg hne, h2, andThen, h1, ↓reduceIte]
        · exact absurd hd h1
        · have := h1.stat
          rw [hd.stat] at this
          cases this
      | lingos => exact absurd trivial h
      | serve => exact absurd (fun _ _ he => nomatch he) hs
      | replay => exact absurd (fun _ _ he => nomatch he) hs
      | view => exact absurd (fun _ _ he => nomatch he) hs

/-- C88. A run changes no file but the trace it was told to write, and that only if everything could be opened. -/
theorem C88_files {σ : Type} (D : Device σ) (s : Srv σ) (os : OS) (legacy : Bool) (env : Env) (cmd : Cmd) (q : Path)
    (h : (run D s os legacy env cmd).files q ≠ os.node q) : traceOf cmd = some q ∧ ∃ l, Ready os cmd l := by
  by_cases hr : ∃ l, Ready os cmd l
  · refine ⟨?_, hr⟩
    obtain ⟨l, hr⟩ := hr
    have e := congrArg Outcome.files (C88_opens D s os legacy env cmd hr).2.2
    have e' : (run D s os legacy env cmd).files q = (loop D s os legacy env cmd).files q := congrFun e q
    rw [e'] at h
    have hw : ∀ trace w, withTrace os trace w q ≠ os.node q → trace ≠ [] ∧ q = trace := by
      intro trace w hn
      by_cases hc : trace ≠ [] ∧ q = trace
      · exact hc
      · rw [withTrace, if_neg hc] at hn
        exact absurd rfl hn
    have hsv : ∀ x : Out (Live σ × Bool), ∀ f, (serverOutcome x f).files = f := by
      rintro (⟨_, _ | _⟩ | _) f <;> rfl
    have hvw : ∀ x f, (viewOutcome x f).files = f := by
      rintro (_ | _ | _ | _) f <;> first | rfl | (rename_i x; cases x <;> rfl)
    cases cmd with
    | lingos => exact absurd rfl h
    | serve args trace =>
      rw [loop, hsv] at h
      obtain ⟨h1, rfl⟩ := hw _ _ h
      simp [traceOf, h1]
    | replay args => rw [loop, hsv] at h; exact absurd rfl h
    | view args => rw [loop, hvw] at h; exact absurd rfl h
    | send args trace =>
      obtain ⟨h1, rfl⟩ := hw _ _ h
      simp [traceOf, h1]
  · rw [(C88_refused D s os legacy env cmd fun l h => hr ⟨l, h⟩).2.1] at h
    exact absurd rfl h

theorem ready_serve {os : OS} {args : List Bytes} {trace : Path} {l : List (How × Path)} (h : Ready os (.serve args trace) l) :
    ∃ dev, Given args 0 dev ∧ DeviceOpens os dev := by
  cases h with
  | serve h1 h2 => exact ⟨_, h1, h2⟩
  | serveTraced h1 h2 => exact ⟨_, h1, h2⟩

/-- C88, how `serve` ends: with status 0 iff a read of the device has returned `io.EOF` (and the server has not panicked before), with
status 2 iff it has panicked; else it runs on. -/
theorem C88_serve_status {σ : Type} (D : Device σ) (s : Srv σ) (os : OS) (legacy : Bool) (env : Env) (args : List Bytes) (trace : Path)
    {l : List (How × Path)} (h : Ready os (.serve args trace) l) :
    ((run D s os legacy env (.serve args trace)).status = .exit 0 ↔
      ∃ pre x post, env.reads = pre ++ x :: post ∧ x.err = some .eof ∧
        observed D env.clock env.grow (if legacy then legacyReportDefs else defaultReportDefs) pre s ≠ .panic) ∧
    ((run D s os legacy env (.serve args trace)).status = .exit 2 ↔
      observed D env.clock env.grow (if legacy then legacyReportDefs else defaultReportDefs) env.reads s = .panic) ∧
    (run D s os legacy env (.serve args trace)).status ≠ .exit 1 := by
  have e : (run D s os legacy env (.serve args trace)).status = (loop D s os legacy env (.serve args trace)).status :=
    congrArg Outcome.status (C88_opens D s os legacy env _ h).2.2
  rw [e, ← C74_stops_iff]
  simp only [loop, observed, table]
  generalize Live.run D env.clock env.grow (if legacy then legacyReportDefs else defaultReportDefs) env.reads (Live.start s) = x
  cases x with
  | panic => simp [serverOutcome]
  | ret x => obtain ⟨l, _ | _⟩ := x <;> simp [serverOutcome]

theorem table_good (legacy : Bool) : GoodTable (table legacy) ∧ ∀ d ∈ table legacy, d.maxPayload ≤ 1022 := by
  cases legacy
  · exact ⟨goodTable_default, by decide⟩
  · exact ⟨goodTable_legacy, by decide⟩

theorem traced_file {σ : Type} (D : Device σ) (s : Srv σ) (os : OS) (legacy : Bool) (env : Env) {dev trace : Path}
    (h0 : dev ≠ []) (ht : trace ≠ []) (hd : DeviceOpens os dev) (hc : os.refused .create trace = none) (hn : os.node trace = none) :
    (run D s os legacy env (.serve [dev] trace)).files trace =
      some (.file (sessionTrace D env.clock env.grow (table legacy) env.fails env.reads s) none) := by
  have e := congrArg Outcome.files (C88_opens D s os legacy env (.serve [dev] trace)
    (.serveTraced (dev := dev) ⟨rfl, h0⟩ hd ht hc)).2.2
  have e' := congrFun e trace
  rw [show (run D s os legacy env (.serve [dev] trace)).files trace = _ from e']
  have hsv : ∀ x : Out (Live σ × Bool), ∀ f, (serverOutcome x f).files = f := by
    rintro (⟨_, _ | _⟩ | _) f <;> rfl
  rw [loop, hsv, withTrace, if_pos ⟨ht, rfl⟩, hn]
  rfl

/-- C88, recording and viewing: after `serve -w trace dev` on a new file, `view trace` with the same choice of the table ends with
status 0 and shows the session, round by round. (Under the conditions of `C87_view_partial`.) -/
theorem C88_view_partial {σ : Type} (D : Device σ) (s : Srv σ) (os : OS) (legacy : Bool) (env : Env) {dev trace : Path}
    (h0 : dev ≠ []) (ht : trace ≠ []) (hd : DeviceOpens os dev) (hc : os.refused .create trace = none)
    (hi : os.refused .input trace = none) (hn : os.node trace = none) (hs : s.mode = false) (hf : env.fails = fun _ => none)
    (hr : Recordable (table legacy) env.reads) :
    ∃ es s' tail, Talk D env.clock (table legacy) s es s' ∧ recordedData env.reads = es.flatMap (·.used) ++ tail ∧
      (run D s os legacy env (.serve [dev] trace)).frames = es.flatMap (fun e => e.sent.map (·.frame)) ∧
      (PacketsFit es → ∀ (s2 : Srv σ) (env' : Env), (talkMsgs es tail).length < env'.steps →
        let os' := { os with node := (run D s os legacy env (.serve [dev] trace)).files }
        (run D s2 os' legacy env' (.view [trace])).status = .exit 0 ∧
        ShownTalk es (run D s2 os' legacy env' (.view [trace])).shown) := by
  obtain ⟨hg, hmax⟩ := table_good legacy
  obtain ⟨es, s', tail, h1, h2, _, h4, h5⟩ := C87_view_partial D env.clock env.grow hg hmax hr s hs
  refine ⟨es, s', tail, h1, h2, ?_, ?_⟩
  · have e : (run D s os legacy env (.serve [dev] trace)).frames = _ :=
      congrArg Outcome.frames (C88_opens D s os legacy env (.serve [dev] trace) (.serveTraced (dev := dev) ⟨rfl, h0⟩ hd ht hc)).2.2
    rw [e, loop]
    rw [← C74_online D env.clock env.grow (table legacy) (fun d hd => by have := hg.carries d hd; omega)] at h4
    simp only [observed] at h4
    generalize Live.run D env.clock env.grow (table legacy) env.reads (Live.start s) = x at h4 ⊢
    cases x with
    | panic => cases h4
    | ret x =>
      obtain ⟨l, b⟩ := x
      simp only [Out.bind_ret, Out.ret.injEq, Prod.mk.injEq] at h4
      cases b <;> exact h4.2
  · intro hfit s2 env' hst os'
    obtain ⟨shown, g1, g2⟩ := h5 hfit env'.grow env'.steps hst
    have hfile : os'.node trace = some (.file (sessionTrace D env.clock env.grow (table legacy) env.fails env.reads s) none) :=
      traced_file D s os legacy env h0 ht hd hc hn
    have e := (C88_opens D s2 os' legacy env' (.view [trace]) (.view (p := trace) ⟨rfl, ht⟩ ⟨hi, by rw [hfile]; simp⟩)).2.2
    have e1 : (run D s2 os' legacy env' (.view [trace])).status = _ := congrArg Outcome.status e
    have e2 : (run D s2 os' legacy env' (.view [trace])).shown = _ := congrArg Outcome.shown e
    rw [e1, e2, loop, show arg [trace] 0 = trace from rfl, inputReader, hfile, hf]
    simp only
    rw [g1]
    exact ⟨rfl, g2⟩

/-- C88, recording and replaying: after `serve -w trace dev` on a new file, `replay trace` with the same choice of the table, by a
server in the state in which the session began, has written the same frames once it has read the file to its end, and ends with
status 0; if the session has ended with a panic, so does the replay. (Under the condition of `C87_replay_partial`.) -/
theorem C88_replay_partial {σ : Type} (D : Device σ) (s : Srv σ) (os : OS) (legacy : Bool) (env : Env) {dev trace : Path}
    (h0 : dev ≠ []) (ht : trace ≠ []) (hd : DeviceOpens os dev) (hc : os.refused .create trace = none)
    (hi : os.refused .input trace = none) (hn : os.node trace = none) (hl : ∀ x ∈ env.reads, x.data.length ≤ 1024)
    (hf : FailsUnnoticed (table legacy) env.reads) (env' : Env) (hclock : env'.clock = env.clock) (hgrow : env'.grow = env.grow)
    (hst : (recordedData env.reads).length < env'.steps) :
    let os' := { os with node := (run D s os legacy env (.serve [dev] trace)).files }
    (run D s os' legacy env' (.replay [trace])).status =
        (if (run D s os legacy env (.serve [dev] trace)).status = .exit 2 then .exit 2 else .exit 0) ∧
      (run D s os' legacy env' (.replay [trace])).frames = (run D s os legacy env (.serve [dev] trace)).frames := by
  intro os'
  obtain ⟨hg, hmax⟩ := table_good legacy
  have hlen : ∀ d ∈ table legacy, 1 ≤ d.len := fun d hd => by have := hg.carries d hd; omega
  have hfile : os'.node trace = some (.file (sessionTrace D env.clock env.grow (table legacy) env.fails env.reads s) none) :=
    traced_file D s os legacy env h0 ht hd hc hn
  obtain ⟨j, hj⟩ : ∃ j, env'.steps = (recordedData env.reads).length + (j + 1) := ⟨env'.steps - (recordedData env.reads).length - 1, by omega⟩
  have hserve := C87_replay_partial D env.clock env.grow hg hmax env.fails hl hf s (j + 1)
  obtain ⟨pre, _, _, _, _, _, hshape⟩ := session_replayed D env.clock env.grow hg hmax env.fails hl s
  obtain ⟨i, hi1, hshape⟩ := hshape (j + 1)
  rw [← C74_online D env.clock env.grow (table legacy) hlen, ← C74_online D env.clock env.grow (table legacy) hlen] at hserve
  have e := (C88_opens D s os' legacy env' (.replay [trace]) (.replay (p := trace) ⟨rfl, ht⟩ ⟨hi, by rw [hfile]; simp⟩)).2.2
  have e1 : (run D s os' legacy env' (.replay [trace])).status = _ := congrArg Outcome.status e
  have e2 : (run D s os' legacy env' (.replay [trace])).frames = _ := congrArg Outcome.frames e
  have e' := (C88_opens D s os legacy env (.serve [dev] trace) (.serveTraced (dev := dev) ⟨rfl, h0⟩ hd ht hc)).2.2
  have e3 : (run D s os legacy env (.serve [dev] trace)).frames = _ := congrArg Outcome.frames e'
  have e4 : (run D s os legacy env (.serve [dev] trace)).status = _ := congrArg Outcome.status e'
  rw [e1, e2, e3, e4, loop, loop, show arg [trace] 0 = trace from rfl, inputReads, inputReader, hfile, hclock, hgrow, hj]
  simp only
  generalize hR : dirReads dirIn 1024 ((recordedData env.reads).length + (j + 1))
    (newReader (sessionTrace D env.clock env.grow (table legacy) env.fails env.reads s) none) = R at hserve hshape
  have hstop : ∀ l b, observed D env.clock env.grow (table legacy) R s = .ret (l, b) → b = false := by
    intro l b ho
    obtain ⟨l', hl'⟩ := (C74_stops_iff D env.clock env.grow (table legacy) R s).2 (by
      obtain ⟨i', rfl⟩ : ∃ i', i = i' + 1 := ⟨i - 1, by omega⟩
      refine ⟨_, ⟨[], some .eof⟩, List.replicate i' ⟨[], some .eof⟩, by rw [hshape, List.replicate_succ], rfl, ?_⟩
      intro hp
      rw [observed, hshape, run_append] at ho
      rw [show Live.run D env.clock env.grow (table legacy) _ (Live.start s) = _ from hp] at ho
      cases ho)
    rw [hl'] at ho
    cases ho
    rfl
  simp only [observed] at hserve hstop
  cases hA : Live.run D env.clock env.grow (table legacy) env.reads (Live.start s) with
  | panic =>
    rw [hA] at hserve
    cases hB : Live.run D env.clock env.grow (table legacy) R (Live.start s) with
    | panic => exact ⟨rfl, rfl⟩
    | ret y => rw [hB] at hserve; cases hserve
  | ret x =>
    rw [hA] at hserve
    cases hB : Live.run D env.clock env.grow (table legacy) R (Live.start s) with
    | panic => rw [hB] at hserve; cases hserve
    | ret y =>
      obtain ⟨l, b⟩ := y
      have := hstop l b hB
      subst this
      rw [hB] at hserve
      simp only [Out.bind_ret, Out.ret.injEq, Prod.mk.injEq] at hserve
      obtain ⟨l2, b2⟩ := x
      cases b2 <;> exact ⟨rfl, hserve.2⟩

/-- C88, how `view` ends: with status 1 iff a line of the file is of 64 KiB or more, or is neither empty nor accepted, or the file cannot be
read to its end; otherwise it ends with status 0 or panics, after at most as many rounds as there are messages. -/
theorem C88_view_status {σ : Type} (D : Device σ) (s : Srv σ) (os : OS) (legacy : Bool) (env : Env) {p : Path} (args : List Bytes)
    (hp : p ≠ []) (hi : os.refused .input p = none) {content : Bytes} {ending : Option Err} (hn : os.node p = some (.file content ending))
    {ls : List Bytes} (hl : Lines content ls) (hst : ls.length < env.steps) :
    ((run D s os legacy env (.view (p :: args))).status = .exit 1 ↔
      (∃ l ∈ ls, 65536 ≤ l.length ∨ BadLine l) ∨ (∃ e, ending = some e ∧ e ≠ .eof)) ∧
    (run D s os legacy env (.view (p :: args))).status ≠ .running := by
  have e : (run D s os legacy env (.view (p :: args))).status = (loop D s os legacy env (.view (p :: args))).status :=
    congrArg Outcome.status (C88_opens D s os legacy env _ (.view (p := p) ⟨rfl, hp⟩ ⟨hi, by rw [hn]; simp⟩)).2.2
  rw [e, ← C89_refused_iff content ending hl, loop, show arg (p :: args) 0 = p from rfl, inputReader, hn]
  simp only
  cases hload : loadTrace (newReader content ending) with
  | error e' =>
    rw [dumpTrace, hload]
    simp [viewOutcome]
  | ok ms =>
    have hlen : ms.length < env.steps := by
      obtain ⟨ls', h1, _, h3, _⟩ := (C89_load_iff content ending ms).1 hload
      obtain ⟨ls0, _, h4⟩ := C89_lines content
      rw [h4 _ h1, ← h4 _ hl] at h3
      have := told_length h3
      simp at this
      omega
    rcases C58_view_partial hload env.grow (table legacy) env.steps hlen with h | ⟨evs, h, _⟩ <;> rw [h] <;> simp [viewOutcome]

/-- A device at the path `d`, nothing else; everything is allowed. -/
def sampleOS : OS := ⟨fun p => if p = [0x64] then some .device else none, fun _ _ => none, fun _ => false⟩

theorem sampleOS_device : DeviceOpens sampleOS [0x64] := ⟨rfl, by decide, rfl⟩

/-- `C88_fails`: with a device and no trace to send, the device is opened before the complaint. -/
example (env : Env) : opened (run devGeneral (Srv.init DevGeneral.zero) sampleOS false env (.send [[0x64]] [])).evs = [(.device, [0x64])] :=
  (C88_fails devGeneral (Srv.init DevGeneral.zero) sampleOS false env [0x64] [] (by decide) sampleOS_device).2.2

/-- `C88_serve_status`: the device ends or not. -/
example (env : Env) : (run devGeneral (Srv.init DevGeneral.zero) sampleOS false env (.serve [[0x64]] [0x74])).status ≠ .exit 1 :=
  (C88_serve_status devGeneral (Srv.init DevGeneral.zero) sampleOS false env [[0x64]] [0x74]
    (.serveTraced ⟨rfl, by decide⟩ sampleOS_device (by decide) rfl)).2.2

/-- A run of the program on the session `sampleReads`. -/
def sampleEnv (reads : List ReadRes) (steps : Nat) : Env := ⟨fun _ => ⟨2024, 1, 2, 3, 4⟩, fun _ n => n, reads, fun _ => none, steps, []⟩

/-- `serve -w t d` meets the hypotheses of `C88_opens`, `C88_view_partial` and `C88_replay_partial`; `view t` and `send d` those of
`C88_refused`. -/
example : Ready sampleOS (.serve [[0x64]] [0x74]) [(.device, [0x64]), (.create, [0x74])] ∧
    ([0x64] ≠ [] ∧ [0x74] ≠ [] ∧ DeviceOpens sampleOS [0x64] ∧ sampleOS.refused .create [0x74] = none ∧
      sampleOS.refused .input [0x74] = none ∧ sampleOS.node [0x74] = none ∧
      Recordable (table false) (sampleEnv sampleReads 0).reads ∧ (sampleEnv sampleReads 0).fails = fun _ => none) ∧
    (∀ l, ¬ Ready sampleOS (.view [[0x74]]) l) ∧ (∀ l, ¬ Ready sampleOS (.send [[0x64]] []) l) ∧
    ¬ Complete (.send [[0x64]] []) ∧ ¬ Complete (.view [[]]) := by
  refine ⟨.serveTraced ⟨rfl, by decide⟩ sampleOS_device (by decide) rfl,
    ⟨by decide, by decide, sampleOS_device, rfl, rfl, by decide, sample_recordable, rfl⟩, ?_, ?_, ?_, ?_⟩
  · intro l h
    cases h with
    | view h1 h2 =>
      have hp := h1.1
      simp only [List.length_cons, List.length_nil, Nat.zero_add, Nat.lt_add_one, getElem?_pos, List.getElem_cons_zero, Option.some.injEq] at hp
      subst hp
      exact h2.exist (by decide)
  · intro l h
    cases h with
    | send _ h => exact absurd h.1 (by simp)
    | sendTraced _ h => exact absurd h.1 (by simp)
  · rintro ⟨_, p, h, _⟩
    simp at h
  · rintro ⟨p, h, h'⟩
    simp at h
    exact h' h

/-- The program really does that: two answers. -/
example : let r := run devGeneral (Srv.init DevGeneral.zero) sampleOS false (sampleEnv sampleReads 0) (.serve [[0x64]] [0x74])
    (r.status, r.frames) = (.running, [[0x55, 0x04, 0x00, 0x12, 0xFF, 0xFF, 0xEC], [0x55, 0x04, 0x00, 0x12, 0xFF, 0xFF, 0xEC]]) := by
  decide +kernel

/-- A frame (a command of a lingo without handler) in a report of the legacy table only. -/
def legacyReads : List ReadRes := [⟨[0x0E, 0x00, 0x55, 0x02, 0x07, 0x00, 0xF7], none⟩]

theorem legacy_call : OneCall legacyReportDefs [[0x0E, 0x00, 0x55, 0x02, 0x07, 0x00, 0xF7]] (.ok [0x55, 0x02, 0x07, 0x00, 0xF7]) := by
  have h1 : Accepted legacyReportDefs ⟨0x0E, 0x00, [0x55, 0x02, 0x07, 0x00, 0xF7]⟩ [0x55, 0x02, 0x07, 0x00, 0xF7] :=
    accepted_iff.2 ⟨_, rfl, by decide, rfl⟩
  refine .frame (rs := [⟨0x0E, 0x00, [0x55, 0x02, 0x07, 0x00, 0xF7]⟩]) rfl
    ⟨⟨[], _, rfl, by decide, by simp⟩, ?_, [], _, rfl, ?_, by simp, .inl rfl⟩
  · intro r hr
    simp only [List.mem_cons, List.not_mem_nil, or_false] at hr
    subst hr
    exact ⟨_, h1⟩
  · exact .cons (b := [0x55, 0x02, 0x07, 0x00, 0xF7]) (bs := []) (by decide) h1 .nil

theorem legacy_survived : SafeFrame [0x55, 0x02, 0x07, 0x00, 0xF7] := by
  intro spare
  refine ⟨[[0x07, 0x00]], .packet (j := []) (w := [0x55, 0x02, 0x07, 0x00, 0xF7]) (rest := []) (by decide)
    ⟨[2], 0xF7, .inl ⟨2, by decide, rfl, rfl⟩, rfl, by decide⟩ (.done (by decide)), ?_⟩
  rintro p hp m ⟨trx, _, ⟨b, h, _⟩ | ⟨n, r, h, _⟩⟩ <;> (simp at hp; subst hp; simp at h)

theorem legacy_msgs : recordedMsgs (session devGeneral (fun _ => ⟨2024, 1, 2, 3, 4⟩) (fun _ n => n) (table true) (fun _ => none)
    legacyReads (Live.start (Srv.init DevGeneral.zero)) []) = [[0x0E, 0x00, 0x55, 0x02, 0x07, 0x00, 0xF7]].map fun b => ⟨0, 0, b⟩ := by
  decide +kernel

/-- The trace does not say which table it belongs to: a session recorded with `-l` is shown by `view -l`, while `view` without it
shows an error in place of the frame. -/
theorem C88_fails_table (grow : Growth) (steps : Nat) (hst : 1 < steps) :
    let os' := { sampleOS with node :=
      (run devGeneral (Srv.init DevGeneral.zero) sampleOS true (sampleEnv legacyReads 0) (.serve [[0x64]] [0x74])).files }
    let shown := fun legacy => (run devGeneral (Srv.init DevGeneral.zero) os' legacy { sampleEnv [] steps with grow := grow }
      (.view [[0x74]])).shown.map fun e => (e.dir, e.frame)
    shown true = [(0, .ok [0x55, 0x02, 0x07, 0x00, 0xF7])] ∧ ∃ e, shown false = [(0, .error e)] := by
  intro os' shown
  have ht : ([0x74] : Path) ≠ [] := by decide
  have hfile : os'.node [0x74] = _ :=
    traced_file devGeneral (Srv.init DevGeneral.zero) sampleOS true (sampleEnv legacyReads 0) (by decide) ht sampleOS_device rfl (by decide)
  have key : ∀ legacy x, OneCall (table legacy) [[0x0E, 0x00, 0x55, 0x02, 0x07, 0x00, 0xF7]] x → (∀ f, x = .ok f → SafeFrame f) →
      shown legacy = [(0, x)] := by
    intro legacy x hc hs
    have e := (C88_opens devGeneral (Srv.init DevGeneral.zero) os' legacy { sampleEnv [] steps with grow := grow } (.view [[0x74]])
      (.view (p := [0x74]) ⟨rfl, ht⟩ ⟨rfl, by rw [hfile]; simp⟩)).2.2
    have e2 : shown legacy = _ := congrArg (fun o : Outcome => o.shown.map fun e => (e.dir, e.frame)) e
    rw [e2, loop, show arg [[0x74]] 0 = [0x74] from rfl, inputReader, hfile]
    simp only [sampleEnv]
    rw [sessionTrace, recorded_text]
    rw [legacy_msgs]
    obtain ⟨evs, w1, w2⟩ := view_single (fun d hd => by have := (table_good legacy).1.carries d hd; omega) hc hs (by decide) grow steps
      (by simpa using hst)
    rw [w1]
    exact w2
  refine ⟨key true _ legacy_call (by rintro _ ⟨⟩; exact legacy_survived), Err.noReport, key false _ ?_ (by rintro _ ⟨⟩)⟩
  exact .unknown (bs := []) (r := ⟨0x0E, 0x00, [0x55, 0x02, 0x07, 0x00, 0xF7]⟩) unfinished_nil rfl (by decide)

end Props
