import Verif.Model.Hid

/-!
# `WriteFrame` called by several goroutines (hid/hid.go:34-69)

An `Encoder` holds nothing that `WriteFrame` changes: its variables are those of the call. Goroutines that write frames to the same
transport therefore only meet at the `ReportWriter`; here it takes every report (a call of `WriteReport` is one step).
-/

namespace Ipod.Hid
open Go

/-- What a round of the loop of hid.go:37-66 does. -/
inductive Round
  | done
  | refused (e : Err)
  | panic
  | report (r : Report) (offset bytesLeft : Nat)

/-- hid.go:37-66, one round. -/
def encodeRound (defs : List ReportDef) (data : Bytes) (offset bytesLeft : Nat) : Round :=
  if bytesLeft = 0 then .done
  else
    match pick defs bytesLeft .accIn with
    | none => .refused Err.noReport
    | some reportDef =>
      if reportDef.maxPayload < 0 then .panic
      else
        let maxPayload := reportDef.maxPayload.toNat
        let payloadLen := if bytesLeft > maxPayload then maxPayload else bytesLeft
        let linkControl :=
          if bytesLeft > maxPayload then
            if offset = 0 then linkControlMoreToFollow else linkControlContinue ||| linkControlMoreToFollow
          else if offset > 0 then linkControlContinue
          else linkControlDone
        let part := (data.drop offset).take payloadLen
        let reportData := part ++ List.replicate (maxPayload - part.length) 0
        .report ⟨byteOfInt reportDef.id, linkControl, reportData⟩ (offset + payloadLen) (bytesLeft - payloadLen)

/-- A goroutine that writes frames: the variables of its call of `WriteFrame` (hid.go:34-36), if it is in one, and the frames it
writes after it. -/
structure Writer where
  call : Option (Bytes × Nat × Nat)
  frames : List Bytes

/-- The goroutines, what the `ReportWriter` has received, and whether one of them has panicked. See hid/hid.go:22-25,61. -/
structure Writers where
  all : List Writer
  log : List Report
  crashed : Bool

/-- One step of goroutine `i`: it calls `WriteFrame`, or goes through a round of the loop. See hid/hid.go:34-69. -/
def Writers.step (defs : List ReportDef) (s : Writers) (i : Nat) : Writers :=
  if s.crashed then s
  else
    match s.all[i]? with
    | none => s
    | some w =>
      match w.call with
      | none =>
        match w.frames with
        | [] => s
        | f :: fs => { s with all := s.all.set i ⟨some (f, 0, f.length), fs⟩ }
      | some (data, offset, bytesLeft) =>
        match encodeRound defs data offset bytesLeft with
        | .done => { s with all := s.all.set i { w with call := none } }
        | .refused _ => { s with all := s.all.set i { w with call := none } }
        | .panic => { s with crashed := true }
        | .report r offset bytesLeft =>
          { s with all := s.all.set i { w with call := some (data, offset, bytesLeft) }, log := s.log ++ [r] }

/-- The goroutines taking turns in any order. See hid/hid.go:34-69. -/
def Writers.run (defs : List ReportDef) (s : Writers) (schedule : List Nat) : Writers := schedule.foldl (Writers.step defs) s

/-- Before the first step. See hid/hid.go:34-36. -/
def Writers.start (frames : List (List Bytes)) : Writers := ⟨frames.map (⟨none, ·⟩), [], false⟩

/-- All have written their frames. See hid/hid.go:67. -/
def Writers.finished (s : Writers) : Prop := ∀ w ∈ s.all, w.call = none ∧ w.frames = []

/-- The loop of `WriteFrame` is these rounds. -/
theorem writeFrameLoop_rounds (defs : List ReportDef) (fails : Fails) (data : Bytes) (fuel : Nat) (log : List Report)
    (offset bytesLeft : Nat) :
    writeFrameLoop defs fails data (fuel + 1) log offset bytesLeft =
      match encodeRound defs data offset bytesLeft with
      | .done => some (.ret (log, none))
      | .refused e => some (.ret (log, some e))
      | .panic => some .panic
      | .report r offset bytesLeft =>
        match fails log.length with
        | some e => some (.ret (log ++ [r], some e))
        | none => writeFrameLoop defs fails data fuel (log ++ [r]) offset bytesLeft := by
  rw [writeFrameLoop, encodeRound]
  by_cases h : bytesLeft = 0
  · rw [if_pos h, if_pos h]
  · rw [if_neg h, if_neg h]
    cases pick defs bytesLeft .accIn with
    | none => rfl
    | some d =>
      by_cases hn : d.maxPayload < 0
      · simp only [if_pos hn]
      · simp only [if_neg hn]
        cases fails log.length <;> rfl

end Ipod.Hid
