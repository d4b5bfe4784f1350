import Verif.Model.CliText
import Verif.Spec.Cli

/-! What the commands say when they begin. -/

namespace Spec
open Go Ipod.Hid Ipod.Trace Ipod.Log Ipod.Cli

/-- What a command does before its loop, in order: it needs an argument, it opens a path. -/
inductive Step where
  | need (args : List Bytes) (n : Nat) (missing : String)
  | opens (how : How) (p : Path)

/-- The steps of the commands. -/
inductive Steps : Cmd → List Step → Prop
  | lingos : Steps .lingos []
  | serve {args} : Steps (.serve args []) [.need args 0 "device path is missing", .opens .device (arg args 0)]
  | serveTraced {args trace} : trace ≠ [] → Steps (.serve args trace)
      [.need args 0 "device path is missing", .opens .device (arg args 0), .opens .create trace]
  | replay {args} : Steps (.replay args) [.need args 0 "trace file path is missing", .opens .input (arg args 0)]
  | view {args} : Steps (.view args) [.need args 0 "trace file path is missing", .opens .input (arg args 0)]
  | send {args} : Steps (.send args []) [.need args 0 "device path is missing", .opens .device (arg args 0),
      .need args 1 "trace file path is missing", .opens .input (arg args 1)]
  | sendTraced {args trace} : trace ≠ [] → Steps (.send args trace) [.need args 0 "device path is missing", .opens .device (arg args 0),
      .need args 1 "trace file path is missing", .opens .input (arg args 1), .opens .create trace]

/-- The level and the message for something opened. -/
def goodMsg : How → Nat × String
  | .device => (4, "device opened")
  | .input => (3, "trace file opened")
  | .create => (3, "writing trace")

/-- The message for something that cannot be opened. -/
def badMsg : How → String
  | .device => "could not open the device"
  | .input => "could not open the trace file"
  | .create => "could not create a trace file"

/-- The path can be opened for what it is needed for. -/
def Opens (os : OS) : How → Path → Prop
  | .device, p => DeviceOpens os p
  | .input, p => InputOpens os p
  | .create, p => os.refused .create p = none

/-- Why a path cannot be opened: the operating system refuses, there is nothing, or it is not a character device. -/
inductive CannotOpen (os : OS) (txt : Path → Err → Bytes) (how : How) (p : Path) : Bytes → Prop
  | refused {e} : os.refused how p = some e → e ≠ notCharDevice → CannotOpen os txt how p (txt p e)
  | missing : os.refused how p = none → os.node p = none → how ≠ .create → CannotOpen os txt how p (txt p notExist)
  | file {content ending} : os.refused how p = none → how = .device → os.statFails p = false → os.node p = some (.file content ending) →
      CannotOpen os txt how p (ascii "not a char device")

/-- How the steps end. -/
inductive End where
  | loop
  | crash
  | stderr (t : Bytes)

/-- The steps are taken one after another, up to the first that fails; what the log and standard error say. -/
inductive SetsOff (os : OS) (txt : Path → Err → Bytes) : List Step → List Line → End → Prop
  | done : SetsOff os txt [] [] .loop
  | given {args n missing p steps ls e} : Given args n p → SetsOff os txt steps ls e →
      SetsOff os txt (.need args n missing :: steps) ls e
  | missing {args n missing steps} : (∀ p, ¬ Given args n p) →
      SetsOff os txt (.need args n missing :: steps) [] (.stderr (ascii ("usage error: " ++ missing ++ "\n\n")))
  | opened {how p steps ls e} {level : Level} {msg} : Opens os how p → goodMsg how = (level.toNat, msg) → SetsOff os txt steps ls e →
      SetsOff os txt (.opens how p :: steps) (⟨level, ascii msg, [("path", .text p)]⟩ :: ls) e
  | fails {how p steps t} : CannotOpen os txt how p t →
      SetsOff os txt (.opens how p :: steps) [⟨2, ascii (badMsg how), [("path", .text p), ("error", .text t)]⟩]
        (.stderr (ascii "error: " ++ t ++ ascii "\n\n"))
  | crash {p steps} : StatFails os p → SetsOff os txt (.opens .device p :: steps) [] .crash

/-- The lines of the log. -/
def logged (evs : List Ev) : List Line :=
  evs.filterMap fun e => match e with
    | .opened _ _ => none
    | .log l => some l

/-- How it ended, and what was written to standard error. -/
def endOf (r : ResT) (stderr : Bytes) : End :=
  match r with
  | .ok => .loop
  | .panic => .crash
  | .usage _ | .error _ => .stderr stderr

/-- The same event, told with the text of the error where there is one. -/
inductive ToldAs : Ev → Ev → Prop
  | same (e : Ev) : ToldAs e e
  | error {level msg p e t} : ToldAs (.log ⟨level, msg, [("path", .text p), ("error", .err e)]⟩)
      (.log ⟨level, msg, [("path", .text p), ("error", .text t)]⟩)

/-- The same events. -/
inductive ToldAll : List Ev → List Ev → Prop
  | nil : ToldAll [] []
  | cons {e e' l l'} : ToldAs e e' → ToldAll l l' → ToldAll (e :: l) (e' :: l')

end Spec
