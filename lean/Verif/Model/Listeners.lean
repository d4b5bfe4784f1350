import Verif.Model.Single

/-!
# Several transports that read from one device (hid/hid.go:82-120)

Each has its own `Decoder` with its own buffer (hid.go:82-86); they share the `ReportReader`, as do programs that have opened the same
device file: every report goes to the one that reads it (cmd/ipod/main.go:28 opens the file; nothing there keeps a second program from doing so).
Simplification: a round of the loop (reading a report and putting its data into the decoder's own buffer) is one step.
-/

namespace Ipod.Hid
open Go

/-- A transport in the hands of one goroutine: is it in a call of `ReadFrame`, the decoder's buffer (hid.go:82-86), and what the calls
have returned. -/
structure Listener where
  inCall : Bool
  buf : Slice
  returned : List (Except Err Bytes)

/-- The transports, the results of the coming `ReadReport` calls, the results so far with who got them, and whether one has panicked.
See hid/hid.go:82-86,93. -/
structure Listeners where
  all : List Listener
  input : List (Except Err Report)
  log : List (Nat × Except Err Report)
  crashed : Bool

/-- One step of transport `i`, which reads frames for ever: `ReadFrame` is called, or goes through a round of its loop. At the end of
the stream all reads give `io.EOF`. See hid/hid.go:88-120. -/
def Listeners.step (grow : Growth) (defs : List ReportDef) (s : Listeners) (i : Nat) : Listeners :=
  if s.crashed then s
  else
    match s.all[i]? with
    | none => s
    | some w =>
      if w.inCall then
        match s.input with
        | [] => { s with all := s.all.set i ⟨false, w.buf, w.returned ++ [.error .eof]⟩ }
        | .error e :: rs => ⟨s.all.set i ⟨false, w.buf, w.returned ++ [.error e]⟩, rs, s.log ++ [(i, .error e)], s.crashed⟩
        | .ok report :: rs =>
          match decodeRound grow defs report w.buf with
          | .panic => { s with crashed := true }
          | .ret (.looping buf) => ⟨s.all.set i ⟨true, buf, w.returned⟩, rs, s.log ++ [(i, .ok report)], s.crashed⟩
          | .ret (.returned buf r) =>
            ⟨s.all.set i ⟨false, buf, w.returned ++ [r.map (·.data)]⟩, rs, s.log ++ [(i, .ok report)], s.crashed⟩
      else { s with all := s.all.set i ⟨true, w.buf.reset, w.returned⟩ }

/-- The transports taking turns in any order. See hid/hid.go:88-120. -/
def Listeners.run (grow : Growth) (defs : List ReportDef) (s : Listeners) (schedule : List Nat) : Listeners :=
  schedule.foldl (Listeners.step grow defs) s

/-- `n` transports before the first step. See hid/hid.go:122-127. -/
def Listeners.start (n : Nat) (input : List (Except Err Report)) : Listeners :=
  ⟨List.replicate n ⟨false, ⟨[], []⟩, []⟩, input, [], false⟩

end Ipod.Hid
