import Verif.Model.Writers

/-!
# `WriteFrame` called by several goroutines, with a `ReportWriter` that may refuse (hid/hid.go:34-69)

As in `Model/Writers`, but every call of `WriteReport` may fail (hid.go:61-63), and what the calls of `WriteFrame` return is kept.
-/

namespace Ipod.Hid
open Go

/-- A goroutine: the variables of its call of `WriteFrame` (hid.go:34-36), if it is in one, the frames it writes after it, and what its
calls have returned. -/
structure Caller where
  call : Option (Bytes × Nat × Nat)
  frames : List Bytes
  returned : List (Option Err)

/-- The goroutines; the calls of `WriteReport` with goroutine, report and answer; whether one of the goroutines has panicked.
See hid/hid.go:22-25,61. -/
structure Callers where
  all : List Caller
  attempts : List (Nat × Report × Option Err)
  crashed : Bool

/-- One step of goroutine `i`: it calls `WriteFrame`, or goes through a round of the loop. `fails` tells what the calls of
`WriteReport` answer, in the order in which they happen. See hid/hid.go:34-69. -/
def Callers.step (defs : List ReportDef) (fails : Fails) (s : Callers) (i : Nat) : Callers :=
  if s.crashed then s
  else
    match s.all[i]? with
    | none => s
    | some w =>
      match w.call with
      | none =>
        match w.frames with
        | [] => s
        | f :: fs => { s with all := s.all.set i ⟨some (f, 0, f.length), fs, w.returned⟩ }
      | some (data, offset, bytesLeft) =>
        match encodeRound defs data offset bytesLeft with
        | .done => { s with all := s.all.set i ⟨none, w.frames, w.returned ++ [none]⟩ }
        | .refused e => { s with all := s.all.set i ⟨none, w.frames, w.returned ++ [some e]⟩ }
        | .panic => { s with crashed := true }
        | .report r offset bytesLeft =>
          match fails s.attempts.length with
          | none => ⟨s.all.set i ⟨some (data, offset, bytesLeft), w.frames, w.returned⟩, s.attempts ++ [(i, r, none)], s.crashed⟩
          | some e => ⟨s.all.set i ⟨none, w.frames, w.returned ++ [some e]⟩, s.attempts ++ [(i, r, some e)], s.crashed⟩

/-- The goroutines taking turns in any order. See hid/hid.go:34-69. -/
def Callers.run (defs : List ReportDef) (fails : Fails) (s : Callers) (schedule : List Nat) : Callers :=
  schedule.foldl (Callers.step defs fails) s

/-- Before the first step. See hid/hid.go:34-36. -/
def Callers.start (frames : List (List Bytes)) : Callers := ⟨frames.map (⟨none, ·, []⟩), [], false⟩

/-- All have written their frames. See hid/hid.go:67. -/
def Callers.finished (s : Callers) : Prop := s.crashed = false ∧ ∀ w ∈ s.all, w.call = none ∧ w.frames = []

end Ipod.Hid
