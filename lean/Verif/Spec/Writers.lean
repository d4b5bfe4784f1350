import Verif.Spec.Order

/-! Specification: lists mixed, each in its order. -/

namespace Spec
open Go Ipod Ipod.Hid

/-- The elements of all lists one after the other, those of each list in its order. -/
inductive Mixed {α : Type} : List (List α) → List α → Prop
  | done {ws : List (List α)} : (∀ w ∈ ws, w = []) → Mixed ws []
  | step {ws : List (List α)} {rs l : List α} {a : α} (i : Nat) : ws[i]? = some (a :: l) → Mixed (ws.set i l) rs → Mixed ws (a :: rs)

end Spec
