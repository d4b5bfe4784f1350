import Verif.Model.Record
import Verif.Model.Sending
import Verif.Model.Log

/-!
# The commands of the program (cmd/ipod/main.go:27-49, 57-291)

Left out: the parsing of the command line (urfave/cli), the texts printed for usage errors, the listing of `lingos` (it is
`DumpLingos` in Model/Text.lean), the debug flag, the pauses of `send` (278).
-/

namespace Ipod.Cli
open Go Hid Trace Log

/-- A path, as given on the command line. See cmd/ipod/main.go:135,170,196,223,235. -/
abbrev Path := Bytes

/-- What there can be at a path; `ending` is how reading the file ends (as in Model/Trace.lean). See cmd/ipod/main.go:28,33,40,48. -/
inductive Node where
  | device
  | file (content : Bytes) (ending : Option Err)
deriving DecidableEq, Repr

/-- The three ways in which the program opens something: `openDevice` (main.go:27-37), `openTraceFile` (39-45), `newTraceFile`
(47-49). -/
inductive How where
  | device
  | input
  | create
deriving DecidableEq, Repr

/-- The operating system: what there is, and what it refuses to open. `statFails`: `Stat` on the open file fails.
See cmd/ipod/main.go:27-49. -/
structure OS where
  node : Path → Option Node
  refused : How → Path → Option Err
  statFails : Path → Bool

/-- `os.ErrNotExist` and `fmt.Errorf("not a char device")` (main.go:34). -/
abbrev notExist : Err := .other 20
/-- See cmd/ipod/main.go:34. -/
abbrev notCharDevice : Err := .other 21

/-- What comes of running a command up to its loop: the opening of what it needs. See cmd/ipod/main.go:134-163,169-189,195-211,222-284. -/
inductive Res (α : Type) where
  | ok (a : α)
  | usage
  | error (e : Err)
  | panic
deriving DecidableEq, Repr

/-- Something the program did: a successful `open`, or a line in the log. See cmd/ipod/main.go:139-155,175-181,201-207,227-258. -/
inductive Ev where
  | opened (how : How) (p : Path)
  | log (l : Line)
deriving DecidableEq, Repr

/-- `os.OpenFile` with the flags of main.go:28, 40, 48: without `O_CREATE` there has to be something. -/
def openFile (os : OS) (how : How) (p : Path) : Except Err Unit :=
  match os.refused how p with
  | some e => .error e
  | none =>
    match os.node p with
    | some _ => .ok ()
    | none => if how = .create then .ok () else .error notExist

/-- main.go:27-37 `openDevice`. The error of `Stat` is dropped (32); `stat` is nil then. -/
def openDevice (os : OS) (p : Path) : List Ev × Res Unit :=
  match openFile os .device p with
  | .error e => ([], .error e)
  | .ok () =>
    if os.statFails p then ([.opened .device p], .panic)
    else if os.node p = some .device then ([.opened .device p], .ok ())
    else ([.opened .device p], .error notCharDevice)

/-- main.go:39-45 `openTraceFile`. -/
def openTraceFile (os : OS) (p : Path) : List Ev × Res Unit :=
  match openFile os .input p with
  | .error e => ([], .error e)
  | .ok () => ([.opened .input p], .ok ())

/-- main.go:47-49 `newTraceFile`. -/
def newTraceFile (os : OS) (p : Path) : List Ev × Res Unit :=
  match openFile os .create p with
  | .error e => ([], .error e)
  | .ok () => ([.opened .create p], .ok ())

/-- Go's sequence of statements: what comes first, and the rest unless it failed. See cmd/ipod/main.go:139-157. -/
def andThen {α β : Type} (x : List Ev × Res α) (f : α → List Ev × Res β) : List Ev × Res β :=
  match x with
  | (evs, .ok a) => (evs ++ (f a).1, (f a).2)
  | (evs, .usage) => (evs, .usage)
  | (evs, .error e) => (evs, .error e)
  | (evs, .panic) => (evs, .panic)

/-- `log.WithField("path", p)`, with the error if there is one, and the message, as at main.go:140-145. -/
def pathLine (level : Level) (msg : String) (p : Path) (err : Option Err) : Ev :=
  .log ⟨level, ascii msg, ("path", .text p) :: (err.map fun e => ("error", .err e)).toList⟩

/-- main.go:139-145 and the like: open, and log the outcome. -/
def opening (x : List Ev × Res Unit) (p : Path) (okLevel : Level) (okMsg failMsg : String) : List Ev × Res Unit :=
  match x with
  | (evs, .ok ()) => (evs ++ [pathLine okLevel okMsg p none], .ok ())
  | (evs, .error e) => (evs ++ [pathLine errorLevel failMsg p (some e)], .error e)
  | (evs, .usage) => (evs, .usage)
  | (evs, .panic) => (evs, .panic)

/-- main.go:139-145, 227-233. -/
def startDevice (os : OS) (p : Path) : List Ev × Res Unit :=
  opening (openDevice os p) p infoLevel "device opened" "could not open the device"

/-- main.go:175-181, 201-207, 240-246. -/
def startInput (os : OS) (p : Path) : List Ev × Res Unit :=
  opening (openTraceFile os p) p warnLevel "trace file opened" "could not open the trace file"

/-- main.go:148-157, 251-260: only if the flag is there and not empty. -/
def startTrace (os : OS) (p : Path) : List Ev × Res Unit :=
  if p ≠ [] then opening (newTraceFile os p) p warnLevel "writing trace" "could not create a trace file" else ([], .ok ())

/-- urfave/cli v1 `Args.First`, `Args.Get`: empty if there are not as many. See cmd/ipod/main.go:135,170,196,223,235. -/
def arg (args : List Bytes) (n : Nat) : Bytes := args.getD n []

/-- The command with its arguments and the value of `-w`, empty if not given. See cmd/ipod/main.go:113-286. -/
inductive Cmd where
  | lingos
  | serve (args : List Bytes) (trace : Path)
  | replay (args : List Bytes)
  | view (args : List Bytes)
  | send (args : List Bytes) (trace : Path)
deriving DecidableEq, Repr

/-- main.go:113-285: the actions, up to their loops. -/
def start (os : OS) : Cmd → List Ev × Res Unit
  | .lingos => ([], .ok ())
  | .serve args trace =>
    if arg args 0 = [] then ([], .usage)
    else andThen (startDevice os (arg args 0)) fun _ => startTrace os trace
  | .replay args =>
    if arg args 0 = [] then ([], .usage) else startInput os (arg args 0)
  | .view args =>
    if arg args 0 = [] then ([], .usage) else startInput os (arg args 0)
  | .send args trace =>
    if arg args 0 = [] then ([], .usage)
    else andThen (startDevice os (arg args 0)) fun _ =>
      if arg args 1 = [] then ([], .usage)
      else andThen (startInput os (arg args 1)) fun _ => startTrace os trace

/-- main.go:106-108: the table of reports. -/
def table (legacy : Bool) : List ReportDef := if legacy then legacyReportDefs else defaultReportDefs

/-- How a process is doing: `exit 2` is a panic, `exit 1` main.go:97 and `log.Fatal`. -/
inductive Status where
  | running
  | exit (n : Nat)
deriving DecidableEq, Repr

/-- The environment of a run, as far as it has got: the reads of the device that have returned, what becomes of the reports
written to it, the number of reads of a trace file that have returned (or of rounds of `dumpTrace`), how the goroutines of `send`
take turns. See cmd/ipod/main.go:139-161,240-279. -/
structure Env where
  clock : Clock
  grow : Growth
  reads : List ReadRes
  fails : Fails
  steps : Nat
  schedule : List Bool

/-- main.go:183, 208, 247 `trace.NewReader` on the file. -/
def inputReader (os : OS) (p : Path) : Reader :=
  match os.node p with
  | some (.file content ending) => newReader content ending
  | _ => newReader [] (some (.other 22))

/-- main.go:184-185, 248: what `n` calls of `Read` for direction `in` return. -/
def inputReads (os : OS) (p : Path) (n : Nat) : List ReadRes := dirReads dirIn maxRawSize n (inputReader os p)

/-- A file after writing to it from its beginning (`fileAfter`). See cmd/ipod/main.go:47-49. -/
def writeNode (old : Option Node) (w : Bytes) : Option Node :=
  match old with
  | none => some (.file w none)
  | some (.file content ending) => some (.file (fileAfter content w) ending)
  | some .device => some .device

/-- The file with the trace afterwards, all others as before; nothing at all without `-w`. See cmd/ipod/main.go:148-157,251-260. -/
def withTrace (os : OS) (trace : Path) (w : Bytes) : Path → Option Node :=
  fun q => if trace ≠ [] ∧ q = trace then writeNode (os.node q) w else os.node q

/-- What a command has come to: how the process is doing, the frames its server has handed to the transport (none of them kept
here if it panics), what the viewer has shown, and what the files contain. See cmd/ipod/main.go:161-162,187-188,209-210,267-281. -/
structure Outcome where
  status : Status
  frames : List Bytes
  shown : List Shown
  files : Path → Option Node

/-- A run: what was opened and logged before the loop, whether the usage was shown, and the outcome. See cmd/ipod/main.go:89-99,113-286. -/
structure Run extends Outcome where
  evs : List Ev
  usage : Bool

/-- main.go:261-281: the two goroutines of `send`, as far as they have got.
Simplification: the trace sent is read as it was at the start, also when `-w` names the same file. -/
def sending {σ : Type} (D : Device σ) (s : Srv σ) (os : OS) (legacy : Bool) (env : Env) (input : Path) : Sending σ :=
  (Sending.start s env.reads ((sendLoop (inputReads os input env.steps)).zipIdx.map fun x =>
    (x.1, match env.fails x.2 with
      | none => ⟨x.1.length, none⟩
      | some e => ⟨0, some e⟩))).run D env.clock env.grow (table legacy) env.schedule

/-- main.go:332-384 `processFrames`, as far as it has got. -/
def serverOutcome {σ : Type} (x : Out (Live σ × Bool)) (files : Path → Option Node) : Outcome :=
  match x with
  | .panic => ⟨.exit 2, [], [], files⟩
  | .ret (l, false) => ⟨.exit 0, l.written, [], files⟩
  | .ret (l, true) => ⟨.running, l.written, [], files⟩

/-- main.go:419-469 `dumpTrace`, as far as it has got; `.error` is `log.Fatal`. -/
def viewOutcome (x : Except Err (Out (Option (List Shown)))) (files : Path → Option Node) : Outcome :=
  match x with
  | .error _ => ⟨.exit 1, [], [], files⟩
  | .ok .panic => ⟨.exit 2, [], [], files⟩
  | .ok (.ret none) => ⟨.running, [], [], files⟩
  | .ok (.ret (some evs)) => ⟨.exit 0, [], evs, files⟩

/-- The loops of the commands; the answers of the server in `send` are discarded (262). Left out is a device given in place of a
trace file: it counts as a file that cannot be read. See cmd/ipod/main.go:159-162,183-188,208-210,261-281. -/
def loop {σ : Type} (D : Device σ) (s : Srv σ) (os : OS) (legacy : Bool) (env : Env) : Cmd → Outcome
  | .lingos => ⟨.exit 0, [], [], os.node⟩
  | .serve _ trace =>
    serverOutcome (Live.run D env.clock env.grow (table legacy) env.reads (Live.start s))
      (withTrace os trace (sessionTrace D env.clock env.grow (table legacy) env.fails env.reads s))
  | .replay args =>
    serverOutcome (Live.run D env.clock env.grow (table legacy) (inputReads os (arg args 0) env.steps) (Live.start s)) os.node
  | .view args => viewOutcome (dumpTrace env.grow (table legacy) env.steps (inputReader os (arg args 0))) os.node
  | .send args trace =>
    let x := sending D s os legacy env (arg args 1)
    ⟨if x.dead (sendEnds (inputReads os (arg args 1) env.steps)) then .exit 2 else .running, [], [], withTrace os trace x.duplex.file⟩

/-- main.go:57-291. Errors end the process with status 1 (main.go:89-99), a panic with status 2. -/
def run {σ : Type} (D : Device σ) (s : Srv σ) (os : OS) (legacy : Bool) (env : Env) (cmd : Cmd) : Run :=
  match start os cmd with
  | (evs, .ok ()) => ⟨loop D s os legacy env cmd, evs, false⟩
  | (evs, .usage) => ⟨⟨.exit 1, [], [], os.node⟩, evs, true⟩
  | (evs, .error _) => ⟨⟨.exit 1, [], [], os.node⟩, evs, false⟩
  | (evs, .panic) => ⟨⟨.exit 2, [], [], os.node⟩, evs, false⟩

end Ipod.Cli
