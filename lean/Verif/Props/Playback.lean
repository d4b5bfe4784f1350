import Verif.Lemmas.Shown
import Verif.Props.CliMore
import Verif.Props.Gadget

/-!
# C113: `ipod replay` (and `serve`, `send`) as functions of the text of the trace file (of what is read)
-/

namespace Props
open Go Spec Ipod Ipod.Hid Ipod.Trace Ipod.Cli

/-- What the process does is what the gadget did: `exit 2` is a crash. -/
def DoesSo (x : Doing × List Bytes) (status : Status) (frames : List Bytes) : Prop :=
  match x.1 with
  | .waits => status = .running ∧ frames = x.2
  | .ended => status = .exit 0 ∧ frames = x.2
  | .died => status = .exit 2

/-- Among these reads is one that makes up a frame in which a packet announces more than the frame has. -/
def Temptation (legacy : Bool) (clock : Clock) (g : Gadget) (reads : List ReadRes) : Prop :=
  ∃ pre r post, reads = pre ++ r :: post ∧ Tempted legacy clock g pre r

theorem server_does (legacy : Bool) (clock : Clock) (grow : Growth) (reads : List ReadRes) (s : Srv DevGeneral)
    (files : Path → Option Node) :
    let x := serverOutcome (Live.run devGeneral clock grow (table legacy) reads (Live.start s)) files
    DoesSo ((idle s).plays legacy clock reads) x.status x.frames ∨
      x.status = .exit 2 ∧ Temptation legacy clock (idle s) reads := by
  intro x
  have h := run_plays legacy clock grow reads (Live.start s)
  rw [show gadgetOf (Live.start s) = idle s from rfl] at h
  rcases h with h | ⟨h1, h2⟩
  · left
    unfold DoesSo
    match hd : ((idle s).plays legacy clock reads).1 with
    | .waits =>
      simp only [hd] at h ⊢
      obtain ⟨l', h1, h2⟩ := h
      have hx : x = ⟨.running, l'.written, [], files⟩ := by simp only [x, h1]; rfl
      rw [hx]
      exact ⟨rfl, h2⟩
    | .ended =>
      simp only [hd] at h ⊢
      obtain ⟨l', h1, h2⟩ := h
      have hx : x = ⟨.exit 0, l'.written, [], files⟩ := by simp only [x, h1]; rfl
      rw [hx]
      exact ⟨rfl, h2⟩
    | .died =>
      simp only [hd] at h ⊢
      simp only [x, h]
      rfl
  · right
    refine ⟨by simp only [x, h1]; rfl, h2⟩

/-- C113. `ipod serve`: what it does after any reads, and all frames it has written. -/
theorem C113_serve (s : Srv DevGeneral) (os : OS) (legacy : Bool) (env : Env) {dev trace : Path} (h0 : dev ≠ []) (hd : DeviceOpens os dev)
    (hc : trace ≠ [] → os.refused .create trace = none) :
    let x := run devGeneral s os legacy env (.serve [dev] trace)
    DoesSo ((idle s).plays legacy env.clock env.reads) x.status x.frames ∨
      x.status = .exit 2 ∧ Temptation legacy env.clock (idle s) env.reads := by
  intro x
  have hr : ∃ l, Ready os (.serve [dev] trace) l := by
    by_cases ht : trace = []
    · subst ht
      exact ⟨_, .serve (args := [dev]) (dev := dev) ⟨rfl, h0⟩ hd⟩
    · exact ⟨_, .serveTraced (args := [dev]) (dev := dev) ⟨rfl, h0⟩ hd ht (hc ht)⟩
  obtain ⟨l, hr⟩ := hr
  have e := (C88_opens devGeneral s os legacy env _ hr).2.2
  have e1 : x.status = _ := congrArg Outcome.status e
  have e2 : x.frames = _ := congrArg Outcome.frames e
  rw [e1, e2]
  exact server_does legacy env.clock env.grow env.reads s _

/-- C113. `ipod replay`: what it does, and all frames it has written, is determined by the text of the file. -/
theorem C113_replay (s : Srv DevGeneral) (os : OS) (legacy : Bool) (env : Env) {p : Path} (args : List Bytes)
    (hp : p ≠ []) (hi : os.refused .input p = none) {content : Bytes} {ending : Option Err} (hn : os.node p = some (.file content ending)) :
    let x := run devGeneral s os legacy env (.replay (p :: args))
    let reads := fileReadsN content ending env.steps
    x.files = os.node ∧
      (DoesSo ((idle s).plays legacy env.clock reads) x.status x.frames ∨
        x.status = .exit 2 ∧ Temptation legacy env.clock (idle s) reads) := by
  intro x reads
  have e := (C88_opens devGeneral s os legacy env _ (.replay (args := p :: args) (p := p) ⟨rfl, hp⟩ ⟨hi, by rw [hn]; simp⟩)).2.2
  have e0 : x.files = _ := congrArg Outcome.files e
  have e1 : x.status = _ := congrArg Outcome.status e
  have e2 : x.frames = _ := congrArg Outcome.frames e
  have hr : inputReads os (arg (p :: args) 0) env.steps = reads := by
    rw [inputReads, show arg (p :: args) 0 = p from rfl, inputReader, hn]
    exact file_reads content ending env.steps
  refine ⟨?_, ?_⟩
  · rw [e0, loop]
    generalize Live.run _ _ _ _ _ _ = o
    match o with
    | .panic => rfl
    | .ret (l, false) => rfl
    | .ret (l, true) => rfl
  · rw [e1, e2, loop, hr]
    exact server_does legacy env.clock env.grow reads s _

theorem plays_append (legacy : Bool) (clock : Clock) (rs rs' : List ReadRes) : ∀ g : Gadget,
    g.plays legacy clock (rs ++ rs') = match g.after legacy clock rs with
      | some g' => ((g'.plays legacy clock rs').1, (g.plays legacy clock rs).2 ++ (g'.plays legacy clock rs').2)
      | none => g.plays legacy clock rs := by
  induction rs with
  | nil => intro g; rfl
  | cons r rs ih =>
    intro g
    rw [List.cons_append, Gadget.plays, Gadget.after, Gadget.plays]
    cases hr : g.reads legacy clock r with
    | ends => rfl
    | dies => rfl
    | goes g' frames =>
      simp only [ih g']
      cases g'.after legacy clock rs with
      | none => rfl
      | some g'' => simp

/-- The end of the file is what ends the gadget. -/
theorem plays_eof (legacy : Bool) (clock : Clock) (rs rs' : List ReadRes) (g : Gadget) (d : Bytes) :
    (g.plays legacy clock (rs ++ ⟨d, some .eof⟩ :: rs')).1 ≠ .waits := by
  induction rs generalizing g with
  | nil =>
    have hs : Spec.seen legacy (⟨d, some .eof⟩ : ReadRes) = .eof := rfl
    have hr : g.reads legacy clock ⟨d, some .eof⟩ = .ends := by unfold Gadget.reads; simp only [hs]
    rw [List.nil_append, Gadget.plays, hr]
    exact nofun
  | cons r rs ih =>
    rw [List.cons_append, Gadget.plays]
    cases hr : g.reads legacy clock r with
    | ends => simp
    | dies => simp
    | goes g' frames => exact ih g'

/-- C113. A file that can be read to its end is gone through: the command has ended, once it has read all of it. -/
theorem C113_ends (s : Srv DevGeneral) (os : OS) (legacy : Bool) (env : Env) {p : Path} (args : List Bytes)
    (hp : p ≠ []) (hi : os.refused .input p = none) {content : Bytes} {ending : Option Err} (hn : os.node p = some (.file content ending))
    (he : fileEnd content ending = .eof) (hst : (fileReads content).length < env.steps) :
    (run devGeneral s os legacy env (.replay (p :: args))).status ≠ .running := by
  intro hrun
  have h := (C113_replay s os legacy env args hp hi hn).2
  simp only [hrun] at h
  obtain ⟨k, hk⟩ : ∃ k, fileReadsN content ending env.steps = fileReads content ++ ⟨[], some .eof⟩ :: k := by
    unfold fileReadsN
    rw [he, List.take_append, List.take_of_length_le (Nat.le_of_lt hst)]
    obtain ⟨n, hn⟩ := Nat.exists_eq_add_of_lt hst
    have e1 : env.steps - (fileReads content).length = n + 1 := by omega
    have e2 : env.steps = (n + (fileReads content).length) + 1 := by omega
    rw [e1, e2, List.replicate_succ, List.take_succ_cons]
    exact ⟨_, rfl⟩
  have hw := plays_eof legacy env.clock (fileReads content) k (idle s) []
  rw [← hk] at hw
  rcases h with h | ⟨h, _⟩
  · unfold DoesSo at h
    match hd : ((idle s).plays legacy env.clock (fileReadsN content ending env.steps)).1 with
    | .waits => exact hw hd
    | .ended => simp only [hd] at h; cases h.1
    | .died => simp only [hd] at h; cases h
  · cases h

theorem plays_errors (legacy : Bool) (clock : Clock) (n : Nat) (e : Err) (he : e ≠ .eof) : ∀ g : Gadget,
    g.plays legacy clock (List.replicate n ({ data := [], err := some e } : ReadRes)) = (.waits, []) := by
  induction n with
  | zero => intro g; rfl
  | succ n ih =>
    intro g
    have hs : Spec.seen legacy ({ data := [], err := some e } : ReadRes) = .nothing := by
      unfold Spec.seen
      split
      · rename_i h; exact absurd (Option.some.inj h) he
      · rfl
      · rename_i h; cases h
    have hr : g.reads legacy clock ({ data := [], err := some e } : ReadRes) = .goes { g with part := [] } [] := by
      unfold Gadget.reads
      simp only [hs]
    rw [List.replicate_succ, Gadget.plays, hr]
    simp only [ih]
    rfl

theorem reads_then (content : Bytes) (ending : Option Err) {n : Nat} (h : (fileReads content).length ≤ n) :
    fileReadsN content ending n = fileReads content ++
      List.replicate (n - (fileReads content).length) ({ data := [], err := some (fileEnd content ending) } : ReadRes) := by
  unfold fileReadsN
  rw [List.take_append, List.take_of_length_le h, List.take_replicate, Nat.min_eq_left (Nat.sub_le ..)]

theorem plays_waits (legacy : Bool) (clock : Clock) (rs : List ReadRes) : ∀ g : Gadget, (g.plays legacy clock rs).1 = .waits →
    ∃ g', g.after legacy clock rs = some g' := by
  induction rs with
  | nil => exact fun g _ => ⟨g, rfl⟩
  | cons r rs ih =>
    intro g h
    rw [Gadget.plays] at h
    rw [Gadget.after]
    cases hr : g.reads legacy clock r with
    | ends => rw [hr] at h; cases h
    | dies => rw [hr] at h; cases h
    | goes g' frames => rw [hr] at h; exact ih g' h

theorem plays_not_ended (legacy : Bool) (clock : Clock) (rs : List ReadRes) (hr : ∀ r ∈ rs, r.err ≠ some .eof) : ∀ g : Gadget,
    (g.plays legacy clock rs).1 ≠ .ended := by
  induction rs with
  | nil => intro g; exact nofun
  | cons r rs ih =>
    intro g
    have hne : g.reads legacy clock r ≠ .ends := by
      intro h
      unfold Gadget.reads at h
      split at h
      · rename_i hs
        unfold Spec.seen at hs
        split at hs
        · rename_i he; exact hr r (by simp) he
        · cases hs
        · split at hs
          · split at hs <;> cases hs
          · cases hs
      · cases h
      · split at h
        · split at h <;> cases h
        · split at h
          · cases h
          · split at h <;> cases h
    rw [Gadget.plays]
    cases h : g.reads legacy clock r with
    | ends => exact absurd h hne
    | dies => exact nofun
    | goes g' frames => exact ih (fun x hx => hr x (by simp [hx])) g'

/-- C113. A file that cannot be read to its end (a line of 64 KiB or more, a failing read) keeps the command running for good, reading
again and again: it never ends but by a crash, and nothing more is ever answered. -/
theorem C113_spins (s : Srv DevGeneral) (os : OS) (legacy : Bool) (env : Env) {p : Path} (args : List Bytes)
    (hp : p ≠ []) (hi : os.refused .input p = none) {content : Bytes} {ending : Option Err} (hn : os.node p = some (.file content ending))
    (he : fileEnd content ending ≠ .eof) (hst : (fileReads content).length ≤ env.steps) :
    let x := run devGeneral s os legacy env (.replay (p :: args))
    DoesSo ((idle s).plays legacy env.clock (fileReads content)) x.status x.frames ∧ x.status ≠ .exit 0 ∨
      x.status = .exit 2 ∧ Temptation legacy env.clock (idle s) (fileReads content) := by
  intro x
  have hx := (C113_replay s os legacy env args hp hi hn).2
  change DoesSo _ x.status x.frames ∨ x.status = _ ∧ _ at hx
  rw [reads_then content ending hst] at hx
  have hno : ∀ r ∈ fileReads content, r.err ≠ some .eof := by
    intro r hr
    unfold fileReads at hr
    rw [List.mem_filterMap] at hr
    obtain ⟨m, _, h⟩ := hr
    match m with
    | some (false, d) => cases h; exact nofun
    | some (true, d) => cases h
    | none => cases h; exact nofun
  rcases hx with h | ⟨h1, pre, r, post, h2, g, frame, h3, h4, h5⟩
  · left
    rw [plays_append] at h
    have key : DoesSo ((idle s).plays legacy env.clock (fileReads content)) x.status x.frames := by
      cases ha : (idle s).after legacy env.clock (fileReads content) with
      | none => simp only [ha] at h; exact h
      | some g =>
        simp only [ha, plays_errors legacy env.clock _ _ he, List.append_nil] at h
        have hd : ((idle s).plays legacy env.clock (fileReads content)).1 = .waits := by
          have := plays_append legacy env.clock (fileReads content) [] (idle s)
          rw [List.append_nil, ha] at this
          rw [this]; rfl
        unfold DoesSo
        rw [hd]
        exact h
    refine ⟨key, fun h0 => ?_⟩
    have hend := plays_not_ended legacy env.clock _ hno (idle s)
    unfold DoesSo at key
    match hd : ((idle s).plays legacy env.clock (fileReads content)).1 with
    | .waits => simp only [hd, h0] at key; cases key.1
    | .ended => exact hend hd
    | .died => simp only [hd, h0] at key; cases key
  · right
    refine ⟨h1, pre, r, ?_⟩
    rcases List.append_eq_append_iff.1 h2 with ⟨c, rfl, hc⟩ | ⟨c, hc, h6⟩
    · exfalso
      have hm : r ∈ List.replicate (env.steps - (fileReads content).length) ({ data := [], err := some (fileEnd content ending) } : ReadRes) := by
        rw [hc]; simp
      rw [List.mem_replicate] at hm
      rw [hm.2] at h4
      unfold completes Spec.seen at h4
      split at h4
      · rename_i hs
        split at hs
        · cases hs
        · cases hs
        · rename_i hs'; cases hs'
      · cases h4
    · cases c with
      | nil =>
        exfalso
        have hm : r ∈ List.replicate (env.steps - (fileReads content).length) ({ data := [], err := some (fileEnd content ending) } : ReadRes) := by
          rw [← List.nil_append (List.replicate _ _), ← h6]; simp
        rw [List.mem_replicate] at hm
        rw [hm.2] at h4
        unfold completes Spec.seen at h4
        split at h4
        · rename_i hs
          split at hs
          · cases hs
          · cases hs
          · rename_i hs'; cases hs'
        · cases h4
      | cons y c =>
        simp only [List.cons_append, List.cons.injEq] at h6
        obtain ⟨rfl, _⟩ := h6
        exact ⟨c, hc, g, frame, h3, h4, h5⟩

/-- C113. `ipod send`: what it hands to the device, once it has read the file. -/
theorem C113_send (os : OS) {p : Path} {content : Bytes} {ending : Option Err} (hn : os.node p = some (.file content ending)) (steps : Nat)
    (hst : (fileReads content).length ≤ steps) :
    sendLoop (inputReads os p steps) = fileSends content := by
  have e : inputReads os p steps = fileReadsN content ending steps := by
    rw [inputReads, inputReader, hn]
    exact file_reads content ending steps
  have hlen : ∀ x ∈ fileReadsN content ending steps, x.data.length ≤ 1024 := by
    intro x hx
    rw [reads_then content ending hst, List.mem_append] at hx
    rcases hx with hx | hx
    · unfold fileReads at hx
      rw [List.mem_filterMap] at hx
      obtain ⟨m, _, h⟩ := hx
      match m with
      | some (false, d) => cases h; simp; omega
      | some (true, d) => cases h
      | none => cases h; simp
    · rw [List.mem_replicate] at hx; rw [hx.2]; simp
  rw [e, sendLoop_eq _ hlen, reads_then content ending hst, fileSends]
  congr 1
  have hp : (fun x : ReadRes => decide (IsReport x)) = fun r => decide (r.err = none ∧ 3 ≤ r.data.length) := rfl
  rw [hp]
  generalize fileReads content = l
  generalize steps - l.length = k
  induction l with
  | nil =>
    cases k with
    | zero => rfl
    | succ k => rw [List.nil_append, List.replicate_succ, List.takeWhile_cons_of_neg (by simp)]; rfl
  | cons x l ih =>
    by_cases hx : x.err = none ∧ 3 ≤ x.data.length
    · rw [List.cons_append, List.takeWhile_cons_of_pos (by simpa using hx), List.takeWhile_cons_of_pos (by simpa using hx), ih]
    · rw [List.cons_append, List.takeWhile_cons_of_neg (by simpa using hx), List.takeWhile_cons_of_neg (by simpa using hx)]

/-! ### examples -/

/-- A recording: somebody asks for the name in two reports, is answered, and writes nonsense. -/
def playText : Bytes := ascii "< 05 02 55 02\r\n> 03 00 55\n\n< 05010007F7\nnonsense\n< 05 00 55 02 00 09 F5"

theorem playText_messages : fileMessages playText =
    [some (false, [0x05, 0x02, 0x55, 0x02]), some (true, [0x03, 0x00, 0x55]), some (false, [0x05, 0x01, 0x00, 0x07, 0xF7]), none,
     some (false, [0x05, 0x00, 0x55, 0x02, 0x00, 0x09, 0xF5])] := by decide +kernel

-- it is answered with the name and with the version
example : (⟨Pod.new, []⟩ : Gadget).plays false gadgetClock (fileReadsN playText none 20) =
    (.ended, [[0x55, 0x0E, 0x00, 0x08, 0x69, 0x70, 0x6F, 0x64, 0x2D, 0x67, 0x61, 0x64, 0x67, 0x65, 0x74, 0x00, 0xA5],
      [0x55, 0x05, 0x00, 0x0A, 0x07, 0x01, 0x02, 0xE7]]) := by decide +kernel
example : fileEnd playText none = .eof ∧ (fileReads playText).length = 4 := by decide +kernel
-- and sent, up to the nonsense
example : fileSends playText = [[0x05, 0x02, 0x55, 0x02], [0x05, 0x01, 0x00, 0x07, 0xF7]] := by decide +kernel
-- a read error in the place of the end of the file
example : fileEnd playText (some (.other 7)) ≠ .eof := by decide +kernel

end Props
