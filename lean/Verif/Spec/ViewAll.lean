import Verif.Spec.View

/-! Specification of where the frames of a trace begin (C58). -/

namespace Spec
open Go Ipod Ipod.Hid Ipod.Trace

/-- The messages of one direction cut into frames, as `Frames`, with the messages of each frame. -/
inductive Cut (defs : List ReportDef) : List Bytes → List (List Bytes × Except Err Bytes) → List Bytes → Prop
  | tail {bs} : Unfinished defs bs → Cut defs bs [] bs
  | cons {used rest r cs tail} : OneCall defs used r → Cut defs rest cs tail → Cut defs (used ++ rest) ((used, r) :: cs) tail

/-- How many messages frames consist of. -/
def messages (cs : List (List Bytes × Except Err Bytes)) : Nat := (cs.map (·.1.length)).sum

/-- In a trace that goes on after `a`, all frames of direction `d` have begun in `a`. -/
def AllBegun (d : Trace.Dir) (cs : List (List Bytes × Except Err Bytes)) (a : List Msg) : Prop :=
  ∀ j < cs.length, messages (cs.take j) < (ofDir d a).length

/-- No frame of one direction begins after the messages at the end of the other one that make no frame. -/
def NoneBehind (ms : List Msg) (cs : Trace.Dir → List (List Bytes × Except Err Bytes)) : Prop :=
  ∀ a m b, ms = a ++ m :: b → (ofDir m.dir a).length = messages (cs m.dir) →
    ∀ d, d = 0 ∨ d = 1 → d ≠ m.dir → AllBegun d (cs d) a

end Spec
