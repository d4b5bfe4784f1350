import Verif.Spec.Hid

/-! Specification: how many reports a frame takes. -/

namespace Spec
open Go Ipod Ipod.Hid

/-- A way to carry a frame: full reports of the table whose data begins with the frame. -/
def CarriedIn (defs : List ReportDef) (frame : Bytes) (rs : List Report) : Prop :=
  (∀ r ∈ rs, ∃ d ∈ defs, FilledBy d r) ∧ ∃ more, dataOf rs = frame ++ more

/-- The last definition for reports to the host is `d`. -/
def LastIn (defs : List ReportDef) (d : ReportDef) : Prop :=
  ∃ pre post, defs = pre ++ d :: post ∧ d.dir = .accIn ∧ ∀ e ∈ post, e.dir ≠ .accIn

/-- No report to the host is larger than the last one. -/
def LargestLast (defs : List ReportDef) : Prop :=
  ∃ d, LastIn defs d ∧ ∀ e ∈ defs, e.dir = .accIn → e.maxPayload ≤ d.maxPayload

end Spec
