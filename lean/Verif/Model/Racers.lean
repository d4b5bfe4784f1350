import Verif.Model.Hid

/-!
# `ReadFrame` called by several goroutines on one transport, statement by statement (hid/hid.go:82-120)

Finer than `Model/Readers`: emptying the buffer, reading a report, putting its data into the buffer and returning the buffer's bytes are
steps of their own, between which others may take theirs. Simplification: what the methods of `bytes.Buffer` do inside is one step (they
are not meant to be called by several goroutines at once; what the memory model allows then is not modelled). What a call returns is what
the buffer holds when it returns.
-/

namespace Ipod.Hid
open Go

/-- Where a goroutine is: not in a call; before `buf.Reset()` (hid.go:90); before `ReadReport` (hid.go:93); with the data of a report that
counts, before the switch (hid.go:104), before `buf.Write` (hid.go:107,111,113,115); before the return (hid.go:119). -/
inductive Place where
  | out
  | entered
  | top
  | got (linkControl : UInt8) (data : Bytes)
  | emptied (linkControl : UInt8) (data : Bytes)
  | leaving
deriving DecidableEq

/-- The goroutines, the decoder's buffer, the results of the coming `ReadReport` calls, what the calls have returned (with who made them, in
the order in which they ended), and whether a goroutine has panicked. See hid/hid.go:82-86. -/
structure Racers where
  all : List Place
  buf : Slice
  input : List (Except Err Report)
  returned : List (Nat × Except Err Bytes)
  crashed : Bool

/-- One step of goroutine `i`, which reads frames for ever. See hid/hid.go:88-120. -/
def Racers.step (grow : Growth) (defs : List ReportDef) (s : Racers) (i : Nat) : Racers :=
  if s.crashed then s
  else
    match s.all[i]? with
    | none => s
    | some .out => { s with all := s.all.set i .entered }
    | some .entered => { s with all := s.all.set i .top, buf := s.buf.reset }
    | some .top =>
      match s.input with
      | [] => { s with all := s.all.set i .out, returned := s.returned ++ [(i, .error .eof)] }
      | .error e :: rs => { s with all := s.all.set i .out, input := rs, returned := s.returned ++ [(i, .error e)] }
      | .ok report :: rs =>
        match find defs report.id.toNat with
        | none => { s with all := s.all.set i .out, input := rs, returned := s.returned ++ [(i, .error Err.noReport)] }
        | some reportDef =>
          if reportDef.maxPayload < 0 then { s with crashed := true }
          else
            { s with
              all := s.all.set i (.got report.linkControl (report.data.take (min report.data.length reportDef.maxPayload.toNat))), input := rs }
    | some (.got linkControl data) =>
      if linkControl = linkControlDone then { s with all := s.all.set i (.emptied linkControl data), buf := s.buf.reset }
      else if linkControl = linkControlMoreToFollow then { s with all := s.all.set i (.emptied linkControl data), buf := s.buf.reset }
      else if linkControl = linkControlContinue ||| linkControlMoreToFollow then
        { s with all := s.all.set i .top, buf := s.buf.write grow data }
      else if linkControl = linkControlContinue then { s with all := s.all.set i .leaving, buf := s.buf.write grow data }
      else { s with all := s.all.set i .top }
    | some (.emptied linkControl data) =>
      { s with all := s.all.set i (if linkControl = linkControlDone then .leaving else .top), buf := s.buf.write grow data }
    | some .leaving => { s with all := s.all.set i .out, returned := s.returned ++ [(i, .ok s.buf.data)] }

/-- The goroutines taking turns in any order. See hid/hid.go:88-120. -/
def Racers.run (grow : Growth) (defs : List ReportDef) (s : Racers) (schedule : List Nat) : Racers :=
  schedule.foldl (Racers.step grow defs) s

/-- `n` goroutines before the first step. See hid/hid.go:122-127. -/
def Racers.start (n : Nat) (input : List (Except Err Report)) : Racers := ⟨List.replicate n .out, ⟨[], []⟩, input, [], false⟩

end Ipod.Hid
