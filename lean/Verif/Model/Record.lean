import Verif.Model.Online

/-!
# The server on a traced device (cmd/ipod/main.go:134-163, `serve -w`)

`Live.onRead` (Model/Online.lean) says what the server writes between two calls of `Read`; here these frames are turned into the
`Write` calls on the device, so that all operations on the device stand in one list, in the order in which they happen. The
tracer (trace.go:144-158, `runTracer`) records them.
-/

namespace Ipod
open Go Hid Trace

/-- main.go:368-380 with hid.go:34-69: the frames are written one after another. `log` are the reports handed to the device so
far, `fails i` is what becomes of the i-th of them: `none` if the device takes it completely, else the error, on which
`WriteFrame` gives up; main.go:378-379 only logs that. A `WriteFrame` that does not come to an end (a table with a report
without payload) counts as a panic here; with a usable table (`Spec.GoodTable`) there is neither. -/
def writeFrames (defs : List ReportDef) (fails : Fails) : List Report → List Bytes → Out (List Report)
  | log, [] => .ret log
  | log, frame :: frames =>
    match writeFrameFor (frame.length + 1) defs fails log frame with
    | some (.ret (log, _)) => writeFrames defs fails log frames
    | _ => .panic

/-- report_transport.go:60-67: one `Write` per report; the first of the reports is the i-th handed to the device. A `Write` that
fails is not recorded, whatever part of the report the device took (trace.go:146), so the number is left open as 0. -/
def writeOps (fails : Fails) : Nat → List Report → List TOp
  | _, [] => []
  | i, r :: rs =>
    .write (rawReportBytes r) (match fails i with
      | none => ⟨(rawReportBytes r).length, none⟩
      | some e => ⟨0, some e⟩) :: writeOps fails (i + 1) rs

/-- main.go:134-163: all operations on the device, from the state `l` on, while its coming `Read` calls return `reads`. `log` are
the reports handed to it so far. The list ends with the last of the reads given, or where the server stops: at a panic or at
`io.EOF` (main.go:337-339). -/
def session {σ : Type} (D : Device σ) (clock : Clock) (grow : Growth) (defs : List ReportDef) (fails : Fails) :
    List ReadRes → Live σ → List Report → List TOp
  | [], _, _ => []
  | r :: reads, l, log =>
    .read r ::
      match l.onRead D clock grow defs r with
      | .panic => []
      | .ret none => []
      | .ret (some l') =>
        match writeFrames defs fails log (l'.written.drop l.written.length) with
        | .panic => []
        | .ret log' => writeOps fails log.length (log'.drop log.length) ++ session D clock grow defs fails reads l' log'

/-- The trace file of a session, on a new file (main.go:156, trace.go:160-165). -/
def sessionTrace {σ : Type} (D : Device σ) (clock : Clock) (grow : Growth) (defs : List ReportDef) (fails : Fails)
    (reads : List ReadRes) (s : Srv σ) : Bytes :=
  (runTracer [] (session D clock grow defs fails reads (Live.start s) [])).1

end Ipod
