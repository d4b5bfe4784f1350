import Verif.Spec.Hid
import Verif.Spec.Server

/-! # What arrives whole after a disturbance (C123) -/

namespace Spec
open Go Ipod Ipod.Hid

/-- The packets in a frame can be told from the frame alone: whatever is in memory behind it, the same ones are found, and none goes
beyond the end. -/
def Settled (frame : Bytes) : Prop := ∃ ps, ∀ spare, Scan spare frame ps false

/-- The reports of one frame, none missing, none more: a single one, or a first, some in between and a last. -/
def OneFrame (rs : List Report) : Prop :=
  (∃ r, rs = [r] ∧ r.linkControl = 0x00) ∨
  ∃ first mid last, rs = first :: (mid ++ [last]) ∧ first.linkControl = 0x02 ∧ (∀ r ∈ mid, r.linkControl = 0x03) ∧
    last.linkControl = 0x01

end Spec
