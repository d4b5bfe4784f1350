import Verif.Model.Sending

/-! Specification of the `send` command: what the device is given, and when the process is over. -/

namespace Spec
open Go Ipod Ipod.Hid

/-- What the device has taken of the first `k` writes. -/
def takenOf (writes : List (Bytes × Ipod.Trace.WriteRes)) (k : Nat) : List Bytes :=
  ((writes.take k).filter (·.2.err = none)).map (fun x => x.1.take x.2.n)

/-- The data the device took, in order. -/
def given (events : List (Ipod.Trace.Dir × Bytes)) : List Bytes := (events.filter (·.1 = 1)).map (·.2)

/-- All writes have been made, and the last one recorded. -/
def AllMade {σ : Type} (s : Sending σ) : Prop := s.duplex.writes = [] ∧ s.duplex.writeDone = none

end Spec
