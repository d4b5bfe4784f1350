import Verif.Spec.Hid

/-! Specification: reports that get lost on the way. -/

namespace Spec
open Go Ipod Ipod.Hid

/-- A frame, the reports it was written as, and those of them that arrived. -/
structure Transfer where
  frame : Bytes
  sent : List Report
  got : List Report

/-- All reports arrived. -/
def Transfer.Complete (t : Transfer) : Prop := t.got = t.sent

instance (t : Transfer) : Decidable t.Complete := by unfold Transfer.Complete; infer_instance

/-- Nothing arrived that was not among the reports before the last. -/
def Transfer.EndLost (t : Transfer) : Prop := t.got.Sublist t.sent.dropLast

/-- The reports that arrive, as the reads give them. -/
def arrived (ts : List Transfer) : List (Except Err Report) := ts.flatMap fun t => t.got.map .ok

/-- The frames of which all reports arrived, padded with zeros. -/
inductive Intact : List Transfer → List Bytes → Prop
  | nil : Intact [] []
  | whole {t ts pad fs} : t.Complete → Zeros pad → Intact ts fs → Intact (t :: ts) ((t.frame ++ pad) :: fs)
  | lost {t ts fs} : ¬ t.Complete → Intact ts fs → Intact (t :: ts) fs

end Spec
