import Verif.Spec.Hid

/-! Specification: reports that arrive several times in a row. -/

namespace Spec
open Go Ipod Ipod.Hid

/-- The reports of a frame, each with the number of times it arrives once more. -/
abbrev Repeats := List (Report × Nat)

/-- What was sent. -/
def Repeats.sent (c : Repeats) : List Report := c.map (·.1)

/-- What arrives. -/
def Repeats.got (c : Repeats) : List Report := c.flatMap fun p => List.replicate (p.2 + 1) p.1

/-- What the reports of one frame make, arriving so: a single report makes the frame again each time; of several the first counts
once, those between it and the last as often as they come, and the last makes a further frame each further time. -/
inductive Heard : Repeats → List Bytes → Prop
  | single (r k) : Heard [(r, k)] (List.replicate (k + 1) r.data)
  | several (r k) (mid : Repeats) (last m) :
      Heard ((r, k) :: (mid ++ [(last, m)])) ((r.data ++ dataOf (Repeats.got mid) ++ last.data) :: List.replicate m last.data)

/-- The same for successive frames. -/
inductive HeardAll : List Repeats → List Bytes → Prop
  | nil : HeardAll [] []
  | cons {c cs f fs} : Heard c f → HeardAll cs fs → HeardAll (c :: cs) (f ++ fs)

/-- Only the first report of several arrives more than once. -/
def Repeats.Harmless (c : Repeats) : Prop := (∀ p ∈ c.tail, p.2 = 0) ∧ (c.tail = [] → ∀ p ∈ c, p.2 = 0)

end Spec
