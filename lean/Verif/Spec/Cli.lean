import Verif.Model.Cli

/-! Specification of the commands of the program: what they need, open and leave behind. -/

namespace Spec
open Go Ipod.Hid Ipod.Trace Ipod.Cli

/-- The argument number `n` is there, and not empty. -/
def Given (args : List Bytes) (n : Nat) (p : Path) : Prop := args[n]? = some p ∧ p ≠ []

/-- The path can be opened for reading and writing, and is a character device. -/
structure DeviceOpens (os : OS) (p : Path) : Prop where
  allowed : os.refused .device p = none
  device : os.node p = some .device
  stat : os.statFails p = false

/-- The path can be opened, but `Stat` fails then. -/
structure StatFails (os : OS) (p : Path) : Prop where
  allowed : os.refused .device p = none
  exist : os.node p ≠ none
  stat : os.statFails p = true

/-- The path can be opened for reading. -/
structure InputOpens (os : OS) (p : Path) : Prop where
  allowed : os.refused .input p = none
  exist : os.node p ≠ none

/-- All arguments are there. -/
def Complete : Cmd → Prop
  | .lingos => True
  | .serve args _ | .replay args | .view args => ∃ p, Given args 0 p
  | .send args _ => (∃ p, Given args 0 p) ∧ ∃ p, Given args 1 p

/-- All arguments are there and everything can be opened; `opens` is the list of it. -/
inductive Ready (os : OS) : Cmd → List (How × Path) → Prop
  | lingos : Ready os .lingos []
  | serve {args dev} : Given args 0 dev → DeviceOpens os dev → Ready os (.serve args []) [(.device, dev)]
  | serveTraced {args dev trace} : Given args 0 dev → DeviceOpens os dev → trace ≠ [] → os.refused .create trace = none →
      Ready os (.serve args trace) [(.device, dev), (.create, trace)]
  | replay {args p} : Given args 0 p → InputOpens os p → Ready os (.replay args) [(.input, p)]
  | view {args p} : Given args 0 p → InputOpens os p → Ready os (.view args) [(.input, p)]
  | send {args dev p} : Given args 0 dev → Given args 1 p → DeviceOpens os dev → InputOpens os p →
      Ready os (.send args []) [(.device, dev), (.input, p)]
  | sendTraced {args dev p trace} : Given args 0 dev → Given args 1 p → DeviceOpens os dev → InputOpens os p → trace ≠ [] →
      os.refused .create trace = none → Ready os (.send args trace) [(.device, dev), (.input, p), (.create, trace)]

/-- What was opened, in order. -/
def opened (evs : List Ev) : List (How × Path) :=
  evs.filterMap fun e => match e with
    | .opened how p => some (how, p)
    | .log _ => none

/-- The trace file the command is to write, if any. -/
def traceOf : Cmd → Option Path
  | .serve _ trace | .send _ trace => if trace = [] then none else some trace
  | _ => none

end Spec
