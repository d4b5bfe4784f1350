import Verif.Spec.Hid
import Verif.Spec.Trace

/-! Specification of recording and replaying. -/

namespace Spec
open Go Ipod.Hid

/-- A read the tracer writes down: without error and not empty. -/
def Recorded (x : ReadRes) : Prop := x.err = none ∧ x.data ≠ []

instance (x : ReadRes) : Decidable (Recorded x) := by unfold Recorded; infer_instance

/-- A read after which no frame is in progress: anything but an accepted report that says more is to follow. -/
def EndsCall (defs : List ReportDef) (x : ReadRes) : Prop :=
  ∀ id lc d ds, x = ⟨id :: lc :: d :: ds, none⟩ → (∃ b, Accepted defs ⟨id, lc, d :: ds⟩ b) → Ends ⟨id, lc, d :: ds⟩

/-- Reads that are not recorded happen between frames only. -/
def FailsBetweenFrames (defs : List ReportDef) (reads : List ReadRes) : Prop :=
  ∀ pre x y rest, reads = pre ++ x :: y :: rest → ¬ Recorded y → EndsCall defs x

/-- Reads that do not go on with a frame begun before: of the reads that count, the first that is not ignored begins a frame, or is
not a report the decoder accepts. -/
inductive Fresh (defs : List ReportDef) : List ReadRes → Prop
  | nil : Fresh defs []
  | fails {y rest} : ¬ Recorded y → Fresh defs rest → Fresh defs (y :: rest)
  | refused {x rest} : Recorded x →
      (∀ id lc d ds, x = ⟨id :: lc :: d :: ds, none⟩ → ¬ ∃ b, Accepted defs ⟨id, lc, d :: ds⟩ b) → Fresh defs (x :: rest)
  | starts {id lc d ds b rest} : Accepted defs ⟨id, lc, d :: ds⟩ b → Starts ⟨id, lc, d :: ds⟩ →
      Fresh defs (⟨id :: lc :: d :: ds, none⟩ :: rest)
  | ignored {id lc d ds b rest} : Accepted defs ⟨id, lc, d :: ds⟩ b → ¬ Known ⟨id, lc, d :: ds⟩ → Fresh defs rest →
      Fresh defs (⟨id :: lc :: d :: ds, none⟩ :: rest)

/-- A read that is not recorded comes between two frames, or interrupts a frame of which nothing more follows. -/
def FailsUnnoticed (defs : List ReportDef) (reads : List ReadRes) : Prop :=
  ∀ pre x y rest, reads = pre ++ x :: y :: rest → ¬ Recorded y → EndsCall defs x ∨ Fresh defs rest

end Spec
