import Verif.Props.Sending
import Verif.Props.Orders
import Verif.Props.CliText
import Verif.Props.Course

/-! More about the commands of the program (C88, C98): what they leave in the trace file, and what a finished `view` has shown. -/

namespace Props
open Go Spec Ipod Ipod.Hid Ipod.Trace Ipod.Cli

/-! ### `view` -/

theorem dumpLoop_more {grow : Growth} {defs : List ReportDef} {mem : Ptr → Msg} (fuel : Nat) (q : Queue) (mode : Bool) {evs : List Shown}
    (h : dumpLoop grow defs mem fuel q mode = .ret (some evs)) : dumpLoop grow defs mem (fuel + 1) q mode = .ret (some evs) := by
  induction fuel generalizing q mode evs with
  | zero => cases h
  | succ fuel ih =>
    rw [dumpLoop] at h ⊢
    cases hh : q.head with
    | none => rw [hh] at h; exact h
    | some head =>
      rw [hh] at h
      simp only at h ⊢
      cases hr : readFrameQueue grow defs mem (mem head).dir q with
      | panic => rw [hr] at h; cases h
      | ret x =>
        rw [hr] at h
        simp only [Out.bind_ret] at h ⊢
        obtain ⟨q', r⟩ := x
        cases r with
        | error e =>
          simp only at h ⊢
          by_cases he : e = .eof
          · rw [if_pos he] at h ⊢; exact h
          · rw [if_neg he] at h ⊢
            cases hd : dumpLoop grow defs mem fuel q' mode with
            | panic => rw [hd] at h; cases h
            | ret y =>
              rw [hd] at h
              cases y with
              | none => cases h
              | some evs' => rw [ih _ _ hd]; exact h
        | ok f =>
          simp only at h ⊢
          cases hc : readCommands mode f with
          | panic => rw [hc] at h; cases h
          | ret c =>
            rw [hc] at h
            simp only [Out.bind_ret] at h ⊢
            cases hd : dumpLoop grow defs mem fuel q' c.1 with
            | panic => rw [hd] at h; cases h
            | ret y =>
              rw [hd] at h
              cases y with
              | none => cases h
              | some evs' => rw [ih _ _ hd]; exact h

theorem dumpTrace_more {grow : Growth} {defs : List ReportDef} {r : Reader} (fuel k : Nat) {evs : List Shown}
    (h : dumpTrace grow defs fuel r = .ok (.ret (some evs))) : dumpTrace grow defs (fuel + k) r = .ok (.ret (some evs)) := by
  induction k with
  | zero => exact h
  | succ k ih =>
    rw [dumpTrace] at ih
    rw [show fuel + (k + 1) = fuel + k + 1 by omega, dumpTrace]
    cases hl : loadTrace r with
    | error e => rw [hl] at ih; cases ih
    | ok ms =>
      rw [hl] at ih
      simp only [Except.ok.injEq] at ih ⊢
      cases hq : enqueueAll (fun p => (ms[p]?).getD Msg.zero) (List.range ms.length) Queue.empty with
      | panic => rw [hq] at ih; cases ih
      | ret q =>
        rw [hq] at ih
        simp only [Out.bind_ret] at ih ⊢
        exact dumpLoop_more _ _ _ ih

/-- C88, recording and viewing, whatever the device does with the answers: `view` shows of every frame the commands and those of
its answers which the device took, as long as it takes none in part. -/
theorem C88_view_writes_partial {σ : Type} (D : Device σ) (s : Srv σ) (os : OS) (legacy : Bool) (env : Env) {dev trace : Path}
    (h0 : dev ≠ []) (ht : trace ≠ []) (hd : DeviceOpens os dev) (hc : os.refused .create trace = none)
    (hi : os.refused .input trace = none) (hn : os.node trace = none) (hs : s.mode = false)
    (hr : Recordable (table legacy) env.reads) :
    ∃ es s' tail, Talk D env.clock (table legacy) s es s' ∧ recordedData env.reads = es.flatMap (·.used) ++ tail ∧
      (run D s os legacy env (.serve [dev] trace)).frames = es.flatMap (fun e => e.sent.map (·.frame)) ∧
      (WholeRounds env.fails 0 es → PacketsFit (tookRounds env.fails 0 es) → ∀ (s2 : Srv σ) (env' : Env),
        (talkMsgs (tookRounds env.fails 0 es) tail).length < env'.steps →
        let os' := { os with node := (run D s os legacy env (.serve [dev] trace)).files }
        (run D s2 os' legacy env' (.view [trace])).status = .exit 0 ∧
        ShownTalk (tookRounds env.fails 0 es) (run D s2 os' legacy env' (.view [trace])).shown) := by
  obtain ⟨hg, hmax⟩ := table_good legacy
  obtain ⟨es, s', tail, h1, h2, _, h4, h5⟩ := C87_view_writes_partial D env.clock env.grow hg hmax env.fails hr s hs
  refine ⟨es, s', tail, h1, h2, ?_, ?_⟩
  · have e : (run D s os legacy env (.serve [dev] trace)).frames = _ :=
      congrArg Outcome.frames (C88_opens D s os legacy env (.serve [dev] trace) (.serveTraced (dev := dev) ⟨rfl, h0⟩ hd ht hc)).2.2
    rw [e, loop]
    rw [← C74_online D env.clock env.grow (table legacy) (fun d hd => by have := hg.carries d hd; omega)] at h4
    simp only [observed] at h4
    generalize Live.run D env.clock env.grow (table legacy) env.reads (Live.start s) = x at h4 ⊢
    cases x with
    | panic => cases h4
    | ret x =>
      obtain ⟨l, b⟩ := x
      simp only [Out.bind_ret, Out.ret.injEq, Prod.mk.injEq] at h4
      cases b <;> exact h4.2
  · intro hw hfit s2 env' hst os'
    obtain ⟨shown, g1, g2⟩ := h5 hw hfit env'.grow env'.steps hst
    have hfile : os'.node trace = some (.file (sessionTrace D env.clock env.grow (table legacy) env.fails env.reads s) none) :=
      traced_file D s os legacy env h0 ht hd hc hn
    have e := (C88_opens D s2 os' legacy env' (.view [trace]) (.view (p := trace) ⟨rfl, ht⟩ ⟨hi, by rw [hfile]; simp⟩)).2.2
    have e1 : (run D s2 os' legacy env' (.view [trace])).status = _ := congrArg Outcome.status e
    have e2 : (run D s2 os' legacy env' (.view [trace])).shown = _ := congrArg Outcome.shown e
    rw [e1, e2, loop, show arg [trace] 0 = trace from rfl, inputReader, hfile]
    simp only
    rw [g1]
    exact ⟨rfl, g2⟩

/-- The hypotheses, with a device that takes nothing. -/
example : ([0x64] : Path) ≠ [] ∧ ([0x74] : Path) ≠ [] ∧ DeviceOpens sampleOS [0x64] ∧ sampleOS.refused .create [0x74] = none ∧
    sampleOS.refused .input [0x74] = none ∧ sampleOS.node [0x74] = none ∧
    Recordable (table false) ({ sampleEnv sampleReads 0 with fails := fun _ => some .noProgress } : Env).reads :=
  ⟨by decide, by decide, sampleOS_device, rfl, rfl, by decide, sample_recordable⟩

/-- C88, `view`, whenever it has ended with status 0: the file is a trace, and all of it has been shown that `Viewing` says. -/
theorem C88_view_done {σ : Type} (D : Device σ) (s : Srv σ) (os : OS) (legacy : Bool) (env : Env) {p : Path} (args : List Bytes)
    (hp : p ≠ []) (hi : os.refused .input p = none) {content : Bytes} {ending : Option Err} (hn : os.node p = some (.file content ending))
    (h : (run D s os legacy env (.view (p :: args))).status = .exit 0) :
    ∃ ls ms, Lines content ls ∧ (∀ l ∈ ls, l.length < 65536) ∧ Told 0 ls (ms.map some) ∧ (ending = none ∨ ending = some .eof) ∧
      Viewing (if legacy then legacyReportDefs else defaultReportDefs) ms
        ((run D s os legacy env (.view (p :: args))).shown.map fun e => (e.dir, e.frame)) ∧
      ShownCmds false (run D s os legacy env (.view (p :: args))).shown := by
  have e := (C88_opens D s os legacy env _ (.view (args := p :: args) (p := p) ⟨rfl, hp⟩ ⟨hi, by rw [hn]; simp⟩)).2.2
  have e1 : (run D s os legacy env (.view (p :: args))).status = (loop D s os legacy env (.view (p :: args))).status := congrArg Outcome.status e
  have e2 : (run D s os legacy env (.view (p :: args))).shown = (loop D s os legacy env (.view (p :: args))).shown := congrArg Outcome.shown e
  rw [e1] at h
  rw [e2]
  rw [loop, show arg (p :: args) 0 = p from rfl, inputReader, hn] at h ⊢
  simp only at h ⊢
  cases hd : dumpTrace env.grow (table legacy) env.steps (newReader content ending) with
  | error e => rw [hd] at h; cases h
  | ok x =>
    rw [hd] at h
    cases x with
    | panic => cases h
    | ret y =>
      cases y with
      | none => cases h
      | some evs =>
        simp only [viewOutcome]
        have hl : ∃ ms, loadTrace (newReader content ending) = .ok ms := by
          rw [dumpTrace] at hd
          cases hl : loadTrace (newReader content ending) with
          | error e => rw [hl] at hd; cases hd
          | ok ms => exact ⟨ms, rfl⟩
        obtain ⟨ms, hl⟩ := hl
        obtain ⟨ls, h1, h2, h3, h4⟩ := (C89_load_iff content ending ms).1 hl
        refine ⟨ls, ms, h1, h2, h3, h4, ?_⟩
        have hm := dumpTrace_more env.steps (ms.length + 1) hd
        rcases C58_view_partial hl env.grow (table legacy) (env.steps + (ms.length + 1)) (by omega) with h5 | ⟨evs', h5, h6, h7⟩
        · rw [h5] at hm; cases hm
        · rw [h5] at hm
          cases hm
          exact ⟨h6, h7⟩

/-! ### What is left in the file -/

/-- C88, over an older file. Whatever the command writes into a new file, it writes over the beginning of an older one: what was
longer stays as it was. -/
theorem C88_overwrites {σ : Type} (D : Device σ) (s : Srv σ) (os os' : OS) (legacy : Bool) (env : Env) (cmd : Cmd)
    {l : List (How × Path)} (h : Ready os cmd l) {trace : Path} (ht : traceOf cmd = some trace)
    (hnode : ∀ q, q ≠ trace → os'.node q = os.node q) (href : os'.refused = os.refused) (hstat : os'.statFails = os.statFails)
    (hnew : os.node trace = none) {content : Bytes} {ending : Option Err} (hold : os'.node trace = some (.file content ending)) :
    ∃ w, (run D s os legacy env cmd).files trace = some (.file w none) ∧
      (run D s os' legacy env cmd).files trace = some (.file (w ++ content.drop w.length) ending) := by
  have hd : ∀ {p}, DeviceOpens os p → DeviceOpens os' p := by
    intro p hp
    have : p ≠ trace := by
      rintro rfl
      have := hp.device
      rw [hnew] at this
      cases this
    exact ⟨by rw [href]; exact hp.allowed, by rw [hnode _ this]; exact hp.device, by rw [hstat]; exact hp.stat⟩
  have hi : ∀ {p}, InputOpens os p → p ≠ trace ∧ InputOpens os' p := by
    intro p hp
    have : p ≠ trace := by
      rintro rfl
      exact hp.exist hnew
    exact ⟨this, by rw [href]; exact hp.allowed, by rw [hnode _ this]; exact hp.exist⟩
  have hsv : ∀ x : Out (Live σ × Bool), ∀ f, (serverOutcome x f).files = f := by
    rintro (⟨_, _ | _⟩ | _) f <;> rfl
  have key : ∀ l', Ready os' cmd l' → ∀ w, (loop D s os legacy env cmd).files trace = withTrace os trace w trace →
      (loop D s os' legacy env cmd).files trace = withTrace os' trace w trace → trace ≠ [] →
      ∃ w, (run D s os legacy env cmd).files trace = some (.file w none) ∧
      (run D s os' legacy env cmd).files trace = some (.file (w ++ content.drop w.length) ending) := by
    intro l' h' w h1 h2 ht
    refine ⟨w, ?_, ?_⟩
    · have e := congrFun (congrArg Outcome.files (C88_opens D s os legacy env cmd h).2.2) trace
      rw [show (run D s os legacy env cmd).files trace = _ from e, h1, withTrace, if_pos ⟨ht, rfl⟩, hnew]
      rfl
    · have e := congrFun (congrArg Outcome.files (C88_opens D s os' legacy env cmd h').2.2) trace
      rw [show (run D s os' legacy env cmd).files trace = _ from e, h2, withTrace, if_pos ⟨ht, rfl⟩, hold]
      rfl
  cases h with
  | lingos => cases ht
  | serve h1 h2 => simp [traceOf] at ht
  | replay h1 h2 => cases ht
  | view h1 h2 => cases ht
  | send h1 h2 => simp [traceOf] at ht
  | serveTraced h1 h2 h3 h4 =>
    simp only [traceOf, if_neg h3, Option.some.injEq] at ht
    subst ht
    exact key _ (.serveTraced h1 (hd h2) h3 (by rw [href]; exact h4)) _ (by rw [loop, hsv]) (by rw [loop, hsv]) h3
  | @sendTraced args dev p trace' h1 h2 h3 h4 h5 h6 =>
    simp only [traceOf, if_neg h5, Option.some.injEq] at ht
    subst ht
    have hr : inputReader os' p = inputReader os p := by
      rw [inputReader, inputReader, hnode _ (hi h4).1]
    refine key _ (.sendTraced h1 h2 (hd h3) (hi h4).2 h5 (by rw [href]; exact h6)) _ rfl ?_ h5
    rw [loop, sending, sending, inputReads, inputReads, ((given_iff _ _ _).1 h2).1, hr]

theorem dirReaderRead_len (dir : Trace.Dir) (n : Nat) (r : Reader) : (dirReaderRead dir n r).2.data.length ≤ n := by
  fun_induction dirReaderRead dir n r <;> simp_all <;> omega

theorem taken_writes (fails : Fails) (rs : List ReadRes) (i : Nat) :
    writeData (((rs.map (·.data)).zipIdx i).map fun x =>
      (x.1, (match fails x.2 with
        | none => ⟨x.1.length, none⟩
        | some e => ⟨0, some e⟩ : Trace.WriteRes))) =
      ((rs.zipIdx i).filter (fun x => fails x.2 = none)).map (·.1.data) := by
  induction rs generalizing i with
  | nil => rfl
  | cons r rs ih =>
    have := ih (i + 1)
    simp only [writeData] at this ⊢
    simp only [List.map_cons, List.zipIdx_cons]
    cases hf : fails i with
    | none => simp [hf, this]
    | some e => simp [hf, this]

/-- C98, the file. However the goroutines of `send` have taken turns, the trace they write has whole lines: in the one direction
a beginning of what the device has sent, in the other a beginning of the reports in the trace sent, without those the device has refused. -/
theorem C98_file {σ : Type} (D : Device σ) (s : Srv σ) (os : OS) (legacy : Bool) (env : Env) {args : List Bytes} {trace p : Path}
    {l : List (How × Path)} (h : Ready os (.send args trace) l) (hp : Given args 1 p) (ht : trace ≠ []) (hnew : os.node trace = none) :
    ∃ rec, (run D s os legacy env (.send args trace)).files trace = some (.file (linesFor rec) none) ∧
      (∀ x ∈ rec, x.1 = 0 ∨ x.1 = 1) ∧
      (rec.filter (·.1 = 0)).map (·.2) <+: readData env.reads ∧
      (rec.filter (·.1 = 1)).map (·.2) <+:
        ((((inputReads os p env.steps).takeWhile (fun x => decide (IsReport x))).zipIdx.filter (fun x => env.fails x.2 = none)).map (·.1.data)) := by
  obtain ⟨rfl, _⟩ := (given_iff _ _ _).1 hp
  have e := congrFun (congrArg Outcome.files (C88_opens D s os legacy env _ h).2.2) trace
  rw [show (run D s os legacy env (.send args trace)).files trace = _ from e, loop]
  simp only
  rw [withTrace, if_pos ⟨ht, rfl⟩, hnew, sending]
  have hlen : ∀ n r, ∀ x ∈ dirReads dirIn maxRawSize n r, x.data.length ≤ 1024 := by
    intro n
    induction n with
    | zero => intro r x hx; cases hx
    | succ n ih =>
      intro r x hx
      rw [dirReads, List.mem_cons] at hx
      rcases hx with rfl | hx
      · exact dirReaderRead_len _ _ _
      · exact ih _ _ hx
  have hsl := sendLoop_eq (inputReads os (arg args 1) env.steps) (hlen _ _)
  rw [hsl]
  generalize hW : List.map _ (List.zipIdx _) = writes
  obtain ⟨sch, _, hs⟩ := C98_trace D env.clock env.grow (table legacy) (Sending.start s env.reads writes) env.schedule
  rw [hs]
  have h0 : Inv (readData env.reads) (writeData writes) (Duplex.start env.reads writes) [] :=
    ⟨rfl, rfl, rfl, rfl, rfl, by simp [Duplex.start], by simp, fun _ _ _ _ _ h => absurd h before_nil⟩
  obtain ⟨rec, g⟩ := inv_run h0 sch
  have hcat : ∀ a b c d e : List Bytes, a ++ b = c → c ++ d = e → a <+: e :=
    fun a b c d e h1 h2 => ⟨b ++ d, by rw [← List.append_assoc, h1, h2]⟩
  refine ⟨rec, ?_, g.recDirs, hcat _ _ _ _ _ g.recReads g.reads, ?_⟩
  · rw [writeNode, ← g.file]; rfl
  · have hw : writeData writes = ((((inputReads os (arg args 1) env.steps).takeWhile (fun x => decide (IsReport x))).zipIdx.filter
        (fun x => env.fails x.2 = none)).map (·.1.data)) := by
      rw [← hW]
      exact taken_writes env.fails _ 0
    rw [← hw]
    exact hcat _ _ _ _ _ g.recWrites g.writes

/-- A device at `d`, a trace with two reports at `f` of which the device refuses the second, and an older file at `t`. -/
def sendOS (old : Option Node) : OS :=
  ⟨fun p => if p = [0x64] then some .device else if p = [0x66] then some (.file (ascii "< 01 00 55\n< 01 00 56\n") none)
    else if p = [0x74] then old else none, fun _ _ => none, fun _ => false⟩

def sendEnv : Env := ⟨fun _ => ⟨2024, 1, 2, 3, 4⟩, fun _ n => n, [⟨[2, 0, 0x56], none⟩], fun i => if i = 1 then some (.other 30) else none, 2,
  [true, true, false, true, false]⟩

def sentMsgs : List Msg := [⟨0, 0, [0x01, 0x00, 0x55]⟩, ⟨0, 0, [0x01, 0x00, 0x56]⟩]

theorem sent_traceable : ∀ m ∈ sentMsgs, Traceable m := by
  intro m hm
  simp only [sentMsgs, List.mem_cons, List.not_mem_nil, or_false] at hm
  rcases hm with rfl | rfl <;> exact ⟨.inl rfl, by decide, by decide⟩

theorem sendOS_content : ascii "< 01 00 55\n< 01 00 56\n" = traceText sentMsgs := by decide +kernel

theorem sendOS_reads (old : Option Node) : inputReads (sendOS old) [0x66] 2 = [⟨[0x01, 0x00, 0x55], none⟩, ⟨[0x01, 0x00, 0x56], none⟩] := by
  rw [inputReads, inputReader, show (sendOS old).node [0x66] = some (.file (ascii "< 01 00 55\n< 01 00 56\n") none) by simp [sendOS], sendOS_content]
  exact C42_direction_reader sentMsgs sent_traceable dirIn 1024 none 0

theorem sendOS_file (old : Option Node) :
    (run devGeneral (Srv.init DevGeneral.zero) (sendOS old) false sendEnv (.send [[0x64], [0x66]] [0x74])).files [0x74] =
      writeNode old (ascii "> 01 00 55\n< 02 00 56\n") := by
  have hr : Ready (sendOS old) (.send [[0x64], [0x66]] [0x74]) [(.device, [0x64]), (.input, [0x66]), (.create, [0x74])] :=
    .sendTraced ⟨rfl, by decide⟩ ⟨rfl, by decide⟩ ⟨rfl, by simp [sendOS], rfl⟩ ⟨rfl, by simp [sendOS]⟩ (by decide) rfl
  have e := congrFun (congrArg Outcome.files (C88_opens devGeneral (Srv.init DevGeneral.zero) (sendOS old) false sendEnv _ hr).2.2) [0x74]
  rw [show (run devGeneral (Srv.init DevGeneral.zero) (sendOS old) false sendEnv (.send [[0x64], [0x66]] [0x74])).files [0x74] = _ from e, loop]
  simp only
  rw [withTrace, if_pos ⟨by decide, rfl⟩, sending, show arg [[0x64], [0x66]] 1 = [0x66] from rfl, show sendEnv.steps = 2 from rfl, sendOS_reads]
  have hf : ((Sending.start (Srv.init DevGeneral.zero) sendEnv.reads
      (((sendLoop [⟨[0x01, 0x00, 0x55], none⟩, ⟨[0x01, 0x00, 0x56], none⟩]).zipIdx.map fun x =>
        (x.1, match sendEnv.fails x.2 with
          | none => ⟨x.1.length, none⟩
          | some e => ⟨0, some e⟩)))).run devGeneral sendEnv.clock sendEnv.grow (table false) sendEnv.schedule).duplex.file =
      ascii "> 01 00 55\n< 02 00 56\n" := by decide +kernel
  exact congrArg (writeNode old) hf

/-- The hypotheses of the theorems above, and what comes of it: the new file, and the older one, which was longer. -/
example : Ready (sendOS none) (.send [[0x64], [0x66]] [0x74]) [(.device, [0x64]), (.input, [0x66]), (.create, [0x74])] ∧
    (run devGeneral (Srv.init DevGeneral.zero) (sendOS none) false sendEnv (.send [[0x64], [0x66]] [0x74])).files [0x74] =
      some (.file (ascii "> 01 00 55\n< 02 00 56\n") none) ∧
    (run devGeneral (Srv.init DevGeneral.zero) (sendOS (some (.file (ascii "an older trace, longer than the new one") none))) false sendEnv
      (.send [[0x64], [0x66]] [0x74])).files [0x74] = some (.file (ascii "> 01 00 55\n< 02 00 56\n than the new one") none) := by
  refine ⟨.sendTraced ⟨rfl, by decide⟩ ⟨rfl, by decide⟩ ⟨rfl, by decide, rfl⟩ ⟨rfl, by decide +kernel⟩ (by decide) rfl, ?_, ?_⟩
  · rw [sendOS_file]; rfl
  · rw [sendOS_file]; decide +kernel

def viewDone : Except Err (Out (Option (List Shown))) → Bool
  | .ok (.ret (some _)) => true
  | _ => false

theorem viewDone_some {x : Except Err (Out (Option (List Shown)))} (h : viewDone x = true) : ∃ evs, x = .ok (.ret (some evs)) := by
  rcases x with _ | _ | _
  · cases h
  · rename_i y
    cases y with
    | none => cases h
    | some evs => exact ⟨_, rfl⟩
  · cases h

example (steps : Nat) (h : 2 < steps) : (run devGeneral (Srv.init DevGeneral.zero) (sendOS none) false { sendEnv with steps } (.view [[0x66]])).status = .exit 0 ∧
    (sendOS none).refused .input [0x66] = none ∧ ∃ content ending, (sendOS none).node [0x66] = some (.file content ending) := by
  refine ⟨?_, rfl, _, _, rfl⟩
  have e := congrArg Outcome.status (C88_opens devGeneral (Srv.init DevGeneral.zero) (sendOS none) false { sendEnv with steps } (.view [[0x66]])
    (.view (p := [0x66]) ⟨rfl, by decide⟩ ⟨rfl, by decide +kernel⟩)).2.2
  rw [show (run devGeneral (Srv.init DevGeneral.zero) (sendOS none) false { sendEnv with steps } (.view [[0x66]])).status = _ from e, loop,
    show arg [[0x66]] 0 = [0x66] from rfl, inputReader,
    show (sendOS none).node [0x66] = some (.file (ascii "< 01 00 55\n< 01 00 56\n") none) by simp [sendOS], sendOS_content]
  simp only
  obtain ⟨n, rfl⟩ : ∃ n, steps = 3 + n := ⟨steps - 3, by omega⟩
  have hl := C58_loads _ sent_traceable
  rw [writeMsgs_text _ (fun m hm => ⟨(sent_traceable m hm).1, by have := (sent_traceable m hm).2.1; intro h0; rw [h0] at this; simp at this⟩),
    List.nil_append] at hl
  obtain ⟨evs, hd⟩ : ∃ evs, dumpTrace sendEnv.grow (table false) 3 (newReader (traceText sentMsgs) none) = .ok (.ret (some evs)) := by
    rw [dumpTrace, hl]
    have hdone : viewDone (.ok (enqueueAll (fun p => ((sentMsgs.zipIdx.map fun p => (⟨p.1.dir, UInt64.ofNat p.2, p.1.data⟩ : Msg))[p]?).getD Msg.zero)
        (List.range 2) Queue.empty >>= fun q => dumpLoop sendEnv.grow (table false)
          (fun p => ((sentMsgs.zipIdx.map fun p => (⟨p.1.dir, UInt64.ofNat p.2, p.1.data⟩ : Msg))[p]?).getD Msg.zero) 3 q false)) = true := by
      decide +kernel
    exact viewDone_some hdone
  rw [show ({ sendEnv with steps := 3 + n } : Env).grow = sendEnv.grow from rfl, dumpTrace_more 3 n hd]
  rfl

end Props
