import Verif.Model.Server
import Verif.Model.Trace

/-!
# The server while it runs (cmd/ipod/main.go:332-384 on hid/hid.go:88-120), and the `send` command

`Ipod.serve` (Model/Server.lean) is given all reads at once and collects the frames first. Here the same loops are cut at
the calls of the device's `Read`: one step goes from the return of one `Read` to the next call. It is shown
(`Props.C74_online`) that both agree.
-/

namespace Ipod
open Go Hid

/-- The server waiting in a `Read`: the decoder's buffer (hid.go:85), with what has been received of the frame in progress,
the server's state, and the frames handed to `WriteFrame` so far. -/
structure Live (σ : Type) where
  buf : Slice
  srv : Srv σ
  written : List Bytes

/-- The server before its first `Read`: hid.go:89 has reset the empty buffer. -/
def Live.start {σ : Type} (s : Srv σ) : Live σ := ⟨⟨[], []⟩, s, []⟩

/-- A frame is complete (hid.go:107, 118): main.go:345-380, and back to hid.go:89, which resets the buffer. -/
def Live.frame {σ : Type} (D : Device σ) (clock : Clock) (l : Live σ) (buf : Slice) : Out (Live σ) :=
  processFrame D clock l.srv buf >>= fun x => .ret ⟨buf.reset, x.1, l.written ++ x.2⟩

/-- What happens when a `Read` returns `r`, until the next one is called. `none`: the loop is left (main.go:337-339).
On any other error `ReadFrame` is called again (main.go:341-343), which resets the buffer (hid.go:89). -/
def Live.onRead {σ : Type} (D : Device σ) (clock : Clock) (grow : Growth) (defs : List ReportDef) (l : Live σ)
    (r : ReadRes) : Out (Option (Live σ)) :=
  match rawReadReport r with
  | .error e => if e = .eof then .ret none else .ret (some { l with buf := l.buf.reset })
  | .ok report =>
    match find defs report.id.toNat with
    | none => .ret (some { l with buf := l.buf.reset })
    | some reportDef =>
      if reportDef.maxPayload < 0 then .panic
      else
        let reportData := report.data.take (min report.data.length reportDef.maxPayload.toNat)
        if report.linkControl = linkControlDone then
          l.frame D clock (l.buf.reset.write grow reportData) >>= fun l => .ret (some l)
        else if report.linkControl = linkControlMoreToFollow then
          .ret (some { l with buf := l.buf.reset.write grow reportData })
        else if report.linkControl = linkControlContinue ||| linkControlMoreToFollow then
          .ret (some { l with buf := l.buf.write grow reportData })
        else if report.linkControl = linkControlContinue then
          l.frame D clock (l.buf.write grow reportData) >>= fun l => .ret (some l)
        else .ret (some l)

/-- The server after its `Read` calls have returned these results: its state, and whether it still runs. See cmd/ipod/main.go:332-384. -/
def Live.run {σ : Type} (D : Device σ) (clock : Clock) (grow : Growth) (defs : List ReportDef) :
    List ReadRes → Live σ → Out (Live σ × Bool)
  | [], l => .ret (l, true)
  | r :: rs, l =>
    l.onRead D clock grow defs r >>= fun x =>
    match x with
    | none => .ret (l, false)
    | some l => Live.run D clock grow defs rs l

/-! ### `send` -/

/-- cmd/ipod/main.go:269-279: the loop of `send`, reading reports from the trace. What is handed to the device, one `Write`
per report; whether the device takes it is not looked at (275). -/
def sendLoop : List ReadRes → List Bytes
  | [] => []
  | r :: rs =>
    match rawReadReport r with
    | .error _ => []
    | .ok report => rawReportBytes report :: sendLoop rs

/-! ### `send` with a trace: two goroutines on one tracer

With `-w` both the loop of `send` and the server (main.go:267, `go processFrames`) use the same tracer (trace.go:144-158), one
only to write, the other only to read. A call on the tracer first lets the device do the operation and then appends the line
to the trace; in between the other goroutine may run. `(*Writer).WriteMsg` hands the whole line to one `Write` of the file. -/

open Trace

/-- The state of both goroutines: what the device is going to answer to the coming reads, the coming writes with the device's
answers, the operation done but not yet recorded by either of them; what happened at the device, in order; the trace file.
See trace/trace.go:139-158, cmd/ipod/main.go:267-279. -/
structure Duplex where
  reads : List ReadRes
  writes : List (Bytes × WriteRes)
  readDone : Option Bytes
  writeDone : Option Bytes
  events : List (Trace.Dir × Bytes)
  file : Bytes

/-- One step of the reading (`false`) or the writing goroutine. See trace/trace.go:144-158. -/
def Duplex.step (s : Duplex) : Bool → Duplex
  | false =>
    match s.readDone with
    | some d => { s with readDone := none, file := (writeMsg s.file ⟨dirIn, 0, d⟩).1 }
    | none =>
      match s.reads with
      | [] => s
      | r :: rs =>
        match r.err with
        | some _ => { s with reads := rs }
        | none => { s with reads := rs, readDone := some r.data, events := s.events ++ [(dirIn, r.data)] }
  | true =>
    match s.writeDone with
    | some d => { s with writeDone := none, file := (writeMsg s.file ⟨dirOut, 0, d⟩).1 }
    | none =>
      match s.writes with
      | [] => s
      | (p, res) :: ws =>
        match res.err with
        | some _ => { s with writes := ws }
        | none => { s with writes := ws, writeDone := some (p.take res.n), events := s.events ++ [(dirOut, p.take res.n)] }

/-- The goroutines taking turns in any order. See cmd/ipod/main.go:267-279. -/
def Duplex.run (s : Duplex) (schedule : List Bool) : Duplex := schedule.foldl Duplex.step s

/-- Before the first operation, with an empty trace. See cmd/ipod/main.go:259-269. -/
def Duplex.start (reads : List ReadRes) (writes : List (Bytes × WriteRes)) : Duplex := ⟨reads, writes, none, none, [], []⟩

end Ipod
