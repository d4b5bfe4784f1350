import Verif.Model.Racers

/-! Specification: goroutines that hold a lock during each call of `ReadFrame`. -/

namespace Spec
open Go Ipod Ipod.Hid

/-- A goroutine makes a step only while no other is in a call. -/
def Excluding (grow : Growth) (defs : List ReportDef) : Racers → List Nat → Prop
  | _, [] => True
  | s, i :: schedule =>
    (∀ (j : Nat) (p : Place), j ≠ i → s.all[j]? = some p → p = .out) ∧ Excluding grow defs (s.step grow defs i) schedule

end Spec
