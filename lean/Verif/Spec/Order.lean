import Verif.Spec.Loss

/-! Specification: reports that arrive in another order than they were sent. -/

namespace Spec
open Go Ipod Ipod.Hid

/-- The frames a receiver makes of reports in the order they arrive: `pending` is what it has of a frame. -/
def gathered : Bytes → List Report → List Bytes
  | _, [] => []
  | pending, r :: rs =>
    if r.linkControl = 0x00 then r.data :: gathered [] rs
    else if r.linkControl = 0x02 then gathered r.data rs
    else if r.linkControl = 0x01 then (pending ++ r.data) :: gathered [] rs
    else gathered (pending ++ r.data) rs

/-- The first report came first, the last last, and in between nothing can be told from the order. -/
def Transfer.Undisturbed (t : Transfer) : Prop :=
  t.got.head? = t.sent.head? ∧ t.got.getLast? = t.sent.getLast? ∧ dataOf t.got = dataOf t.sent

end Spec
