import Verif.Model.Cli
import Verif.Model.LogText

/-!
# What the commands say when they begin (cmd/ipod/main.go:27-49, 89-99, 113-285)

As Model/Cli.lean, with the texts of the errors: in the log, and on standard error. `txt p e` is what the operating system says
about the path `p`. Left out: the help itself (cli.ShowCommandHelp, on standard output).
-/

namespace Ipod.Cli
open Go Hid Trace Log

/-- How starting a command ends, with the text of the error. See cmd/ipod/main.go:89-99. -/
inductive ResT where
  | ok
  | usage (t : Bytes)
  | error (t : Bytes)
  | panic
deriving DecidableEq, Repr

/-- The text of the error of main.go:27-49: that of main.go:34, or what the operating system says. -/
def faultText (txt : Path → Err → Bytes) (p : Path) (e : Err) : Bytes :=
  if e = notCharDevice then ascii "not a char device" else txt p e

/-- main.go:139-145 and the like: open, and log the outcome; as `opening`. -/
def openingT (txt : Path → Err → Bytes) (x : List Ev × Res Unit) (p : Path) (okLevel : Level) (okMsg failMsg : String) : List Ev × ResT :=
  match x with
  | (evs, .ok ()) => (evs ++ [.log ⟨okLevel, ascii okMsg, [("path", .text p)]⟩], .ok)
  | (evs, .error e) =>
    (evs ++ [.log ⟨errorLevel, ascii failMsg, [("path", .text p), ("error", .text (faultText txt p e))]⟩], .error (faultText txt p e))
  | (evs, .usage) => (evs, .usage [])
  | (evs, .panic) => (evs, .panic)

/-- Go's sequence of statements, as `andThen`. See cmd/ipod/main.go:139-157. -/
def andThenT (x y : List Ev × ResT) : List Ev × ResT :=
  match x with
  | (evs, .ok) => (evs ++ y.1, y.2)
  | (evs, .usage t) => (evs, .usage t)
  | (evs, .error t) => (evs, .error t)
  | (evs, .panic) => (evs, .panic)

/-- main.go:139-145, 227-233. -/
def startDeviceT (os : OS) (txt : Path → Err → Bytes) (p : Path) : List Ev × ResT :=
  openingT txt (openDevice os p) p infoLevel "device opened" "could not open the device"

/-- main.go:175-181, 201-207, 240-246. -/
def startInputT (os : OS) (txt : Path → Err → Bytes) (p : Path) : List Ev × ResT :=
  openingT txt (openTraceFile os p) p warnLevel "trace file opened" "could not open the trace file"

/-- main.go:148-157, 251-260. -/
def startTraceT (os : OS) (txt : Path → Err → Bytes) (p : Path) : List Ev × ResT :=
  if p ≠ [] then openingT txt (newTraceFile os p) p warnLevel "writing trace" "could not create a trace file" else ([], .ok)

/-- main.go:137, 225. -/
def noDevice : Bytes := ascii "device path is missing"

/-- main.go:172, 198, 237. -/
def noInput : Bytes := ascii "trace file path is missing"

/-- main.go:113-285: the actions, up to their loops. -/
def startT (os : OS) (txt : Path → Err → Bytes) : Cmd → List Ev × ResT
  | .lingos => ([], .ok)
  | .serve args trace =>
    if arg args 0 = [] then ([], .usage noDevice)
    else andThenT (startDeviceT os txt (arg args 0)) (startTraceT os txt trace)
  | .replay args =>
    if arg args 0 = [] then ([], .usage noInput) else startInputT os txt (arg args 0)
  | .view args =>
    if arg args 0 = [] then ([], .usage noInput) else startInputT os txt (arg args 0)
  | .send args trace =>
    if arg args 0 = [] then ([], .usage noDevice)
    else andThenT (startDeviceT os txt (arg args 0))
      (if arg args 1 = [] then ([], .usage noInput)
      else andThenT (startInputT os txt (arg args 1)) (startTraceT os txt trace))

/-- main.go:89-99 `ExitErrHandler`: what is written to standard error. -/
def complaint : ResT → Bytes
  | .ok | .panic => []
  | .usage t => ascii "usage error: " ++ t ++ [0x0A, 0x0A]
  | .error t => ascii "error: " ++ t ++ [0x0A, 0x0A]

end Ipod.Cli
