import Verif.Spec.Writers

/-! Specification: calls of `WriteFrame` one after the other, by a goroutine that has the transport for itself. -/

namespace Spec
open Go Ipod Ipod.Hid

/-- Frames written one after the other. `as`: the reports handed over and what `WriteReport` answered; `es`: what the calls returned. -/
inductive Alone (defs : List ReportDef) : List Bytes → List (Report × Option Err) → List (Option Err) → Prop
  | done : Alone defs [] [] []
  | call {f : Bytes} {fs : List Bytes} {as as' : List (Report × Option Err)} {e : Option Err} {es : List (Option Err)} {fuel : Nat}
      {fails : Fails} : writeFrameFor fuel defs fails [] f = some (.ret (as.map (·.1), e)) →
      (∀ (k : Nat) (a : Report × Option Err), as[k]? = some a → fails k = a.2) → Alone defs fs as' es →
      Alone defs (f :: fs) (as ++ as') (e :: es)

/-- What happened to the reports `rs` of one call: all were taken and it returned nil, or one of them was refused, the others after it
were not handed over, and the call returned the error. -/
inductive CallOf : List Report → List (Report × Option Err) → Option Err → Prop
  | taken (rs : List Report) : CallOf rs (rs.map (·, none)) none
  | refused (pre post : List Report) (r : Report) (e : Err) : CallOf (pre ++ r :: post) (pre.map (·, none) ++ [(r, some e)]) (some e)

/-- The attempts of goroutine `i`. -/
def ofGoroutine (i : Nat) (log : List (Nat × Report × Option Err)) : List (Report × Option Err) :=
  (log.filter (·.1 = i)).map (·.2)

end Spec
