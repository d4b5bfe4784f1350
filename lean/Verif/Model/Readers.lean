import Verif.Model.Single

/-!
# `ReadFrame` called by several goroutines on one transport (hid/hid.go:82-120)

A `Decoder` has one buffer for all its calls (hid.go:85): `ReadFrame` empties it when it is called (hid.go:89-90) and every round of its
loop changes it. Simplification: a round (reading a report and putting its data into the buffer) is one step, and what a call returns is
what the buffer holds at that moment (the slice is one of the buffer, which later calls change: see `Model/Memory`).
-/

namespace Ipod.Hid
open Go

/-- What a goroutine does: it calls `ReadFrame` (hid.go:88-90), or reads a report (hid.go:93) with which its call may end
(hid.go:95,99,119). -/
inductive Act where
  | call (i : Nat)
  | read (i : Nat) (x : Except Err Report) (returned : Option (Except Err Bytes))

/-- The goroutines (is it in a call?), the decoder's buffer, the results of the coming `ReadReport` calls, what has happened, and whether
a goroutine has panicked. See hid/hid.go:82-86. -/
structure Readers where
  inCall : List Bool
  buf : Slice
  input : List (Except Err Report)
  acts : List Act
  crashed : Bool

/-- One step of goroutine `i`, which reads frames for ever: it calls `ReadFrame`, or goes through a round of the loop.
See hid/hid.go:88-120. -/
def Readers.step (grow : Growth) (defs : List ReportDef) (s : Readers) (i : Nat) : Readers :=
  if s.crashed then s
  else
    match s.inCall[i]? with
    | none => s
    | some false => { s with inCall := s.inCall.set i true, buf := s.buf.reset, acts := s.acts ++ [.call i] }
    | some true =>
      match s.input with
      | [] => { s with inCall := s.inCall.set i false, acts := s.acts ++ [.read i (.error .eof) (some (.error .eof))] }
      | .error e :: rs => { s with inCall := s.inCall.set i false, input := rs, acts := s.acts ++ [.read i (.error e) (some (.error e))] }
      | .ok report :: rs =>
        match decodeRound grow defs report s.buf with
        | .panic => { s with crashed := true }
        | .ret (.looping buf) => { s with buf := buf, input := rs, acts := s.acts ++ [.read i (.ok report) none] }
        | .ret (.returned buf r) =>
          ⟨s.inCall.set i false, buf, rs, s.acts ++ [.read i (.ok report) (some (r.map (·.data)))], s.crashed⟩

/-- The goroutines taking turns in any order. See hid/hid.go:88-120. -/
def Readers.run (grow : Growth) (defs : List ReportDef) (s : Readers) (schedule : List Nat) : Readers :=
  schedule.foldl (Readers.step grow defs) s

/-- `n` goroutines before the first step. See hid/hid.go:122-127. -/
def Readers.start (n : Nat) (input : List (Except Err Report)) : Readers := ⟨List.replicate n false, ⟨[], []⟩, input, [], false⟩

end Ipod.Hid
