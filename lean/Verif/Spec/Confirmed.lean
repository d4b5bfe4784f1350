import Verif.Spec.Callers
import Verif.Spec.Loss
import Verif.Model.Callers

/-! Specification: calls of `WriteFrame` that returned nil, and goroutines that take turns under a lock. -/

namespace Spec
open Go Ipod Ipod.Hid

/-- Calls of `WriteFrame`, with what they returned, against frames: those of the calls that returned nil, in order, padded with zeros.
Of a frame without bytes nothing is sent. -/
inductive Confirmed : List (Bytes × Option Err) → List Bytes → Prop
  | nil : Confirmed [] []
  | sent {f pad : Bytes} {cs : List (Bytes × Option Err)} {gs : List Bytes} : f ≠ [] → Zeros pad → Confirmed cs gs →
      Confirmed ((f, none) :: cs) ((f ++ pad) :: gs)
  | empty {cs : List (Bytes × Option Err)} {gs : List Bytes} : Confirmed cs gs → Confirmed (([], none) :: cs) gs
  | refused {f : Bytes} {e : Err} {cs : List (Bytes × Option Err)} {gs : List Bytes} : Confirmed cs gs → Confirmed ((f, some e) :: cs) gs

/-- The reports that were not refused. -/
def notRefused (as : List (Report × Option Err)) : List Report := (as.filter fun a => a.2.isNone).map (·.1)

/-- A goroutine makes a step only while no other is in a call, as with a lock held during each call. -/
def Locked (defs : List ReportDef) (fails : Fails) : Callers → List Nat → Prop
  | _, [] => True
  | s, i :: schedule =>
    (∀ (j : Nat) (w : Caller), j ≠ i → s.all[j]? = some w → w.call = none) ∧ Locked defs fails (s.step defs fails i) schedule

/-- Frames written one after the other, each again and again until `WriteFrame` returns nil. -/
inductive Insisted : List Bytes → List (Bytes × Option Err) → Prop
  | nil : Insisted [] []
  | again {f : Bytes} {fs : List Bytes} {e : Err} {cs : List (Bytes × Option Err)} : Insisted (f :: fs) cs → Insisted (f :: fs) ((f, some e) :: cs)
  | next {f : Bytes} {fs : List Bytes} {cs : List (Bytes × Option Err)} : Insisted fs cs → Insisted (f :: fs) ((f, none) :: cs)

/-- Each frame once, in order, padded with zeros. -/
inductive EachPadded : List Bytes → List Bytes → Prop
  | nil : EachPadded [] []
  | cons {f pad : Bytes} {fs gs : List Bytes} : Zeros pad → EachPadded fs gs → EachPadded (f :: fs) ((f ++ pad) :: gs)

end Spec
