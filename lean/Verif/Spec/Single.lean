import Verif.Model.Single
import Verif.Spec.Hid

/-! Specification of decoding one report held in memory. -/

namespace Spec
open Go Ipod.Hid

/-- The bytes are a report: id, link control, data. -/
def IsSingle (s : Bytes) (r : Report) : Prop := s = r.id :: r.linkControl :: r.data

/-- What the decoder has in its buffer after `n` rounds that do not end. -/
def heldAfter (r : Report) (b : Bytes) (n : Nat) : Bytes :=
  if n = 0 then []
  else if r.linkControl = 0x02 then b
  else if r.linkControl = 0x03 then (List.replicate n b).flatten
  else []

end Spec
