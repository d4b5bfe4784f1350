import Verif.Go.Buffer

/-! Model of hid/report_def.go, hid/hid.go and hid/report_transport.go. -/

namespace Ipod.Hid
open Go

/-- report_def.go:9-16 `ReportDir`. -/
inductive Dir where
  | accIn
  | accOut
deriving DecidableEq, Repr

/-- report_def.go:19-26 `ReportDef`; `int` fields (their ranges never matter, hence unbounded). -/
structure ReportDef where
  id : Int
  len : Int
  dir : Dir
deriving DecidableEq, Repr

/-- report_def.go:29-31 `MaxPayload`. -/
def ReportDef.maxPayload (d : ReportDef) : Int := d.len - 1

/-- report_def.go:38-49 `DefaultReportDefs`. -/
def defaultReportDefs : List ReportDef :=
  [⟨0x01, 12, .accIn⟩, ⟨0x02, 14, .accIn⟩, ⟨0x03, 20, .accIn⟩, ⟨0x04, 63, .accIn⟩,
   ⟨0x05, 8, .accIn⟩, ⟨0x06, 10, .accIn⟩, ⟨0x07, 14, .accIn⟩, ⟨0x08, 20, .accIn⟩, ⟨0x09, 63, .accIn⟩]

/-- report_def.go:51-74 `LegacyReportDefs`. -/
def legacyReportDefs : List ReportDef :=
  [⟨0x01, 5, .accIn⟩, ⟨0x02, 9, .accIn⟩, ⟨0x03, 13, .accIn⟩, ⟨0x04, 17, .accIn⟩, ⟨0x05, 25, .accIn⟩,
   ⟨0x06, 49, .accIn⟩, ⟨0x07, 95, .accIn⟩, ⟨0x08, 193, .accIn⟩, ⟨0x09, 257, .accIn⟩, ⟨0x0A, 385, .accIn⟩,
   ⟨0x0B, 513, .accIn⟩, ⟨0x0C, 767, .accIn⟩,
   ⟨0x0D, 5, .accOut⟩, ⟨0x0E, 9, .accOut⟩, ⟨0x0F, 13, .accOut⟩, ⟨0x10, 17, .accOut⟩, ⟨0x11, 25, .accOut⟩,
   ⟨0x12, 49, .accOut⟩, ⟨0x13, 95, .accOut⟩, ⟨0x14, 193, .accOut⟩, ⟨0x15, 255, .accOut⟩]

/-- Loop of report_def.go:80-87, `def` being the variable `def`. -/
def pickLoop (payloadSize : Int) (dir : Dir) : List ReportDef → Option ReportDef → Option ReportDef
  | [], d => d
  | r :: rs, d =>
    if r.dir = dir then
      if r.maxPayload ≥ payloadSize then some r
      else pickLoop payloadSize dir rs (some r)
    else pickLoop payloadSize dir rs d

/-- report_def.go:77-94 `Pick` (`none`: the error of line 90). -/
def pick (defs : List ReportDef) (payloadSize : Int) (dir : Dir) : Option ReportDef :=
  pickLoop payloadSize dir defs none

/-- report_def.go:97-104 `Find`. -/
def find (defs : List ReportDef) (id : Int) : Option ReportDef := defs.find? fun d => d.id = id

/-- hid.go:8-12 `Report`. -/
structure Report where
  id : UInt8
  linkControl : UInt8
  data : Bytes
deriving DecidableEq, Repr

/-- hid.go:17-19. -/
abbrev linkControlDone : UInt8 := 0x00
/-- See hid/hid.go:18. -/
abbrev linkControlContinue : UInt8 := 0x01
/-- See hid/hid.go:19. -/
abbrev linkControlMoreToFollow : UInt8 := 0x02

/-- Go's conversion `byte(x)` of an int. See hid/hid.go:57. -/
def byteOfInt (x : Int) : UInt8 := UInt8.ofNat (x % 256).toNat

/-- A writer of reports: everything handed to it so far, in order. What the i-th call answers is given by
`fails i`. See hid/report_transport.go:12-14, hid/hid.go:61. -/
abbrev Fails := Nat → Option Err

/-- hid.go:34-69 `(*Encoder).WriteFrame`, the loop of lines 37-66, from the given `offset` and `bytesLeft`. `log` is
what the writer has received. `none`: still running after `fuel` rounds.
`make([]byte, n)` panics for negative `n` (line 54). -/
def writeFrameLoop (defs : List ReportDef) (fails : Fails) (data : Bytes) :
    Nat → List Report → Nat → Nat → Option (Out (List Report × Option Err))
  | 0, _, _, _ => none
  | fuel + 1, log, offset, bytesLeft =>
    if bytesLeft = 0 then some (.ret (log, none))
    else
      match pick defs bytesLeft .accIn with
      | none => some (.ret (log, some Err.noReport))
      | some reportDef =>
        if reportDef.maxPayload < 0 then some .panic
        else
          let maxPayload := reportDef.maxPayload.toNat
          let payloadLen := if bytesLeft > maxPayload then maxPayload else bytesLeft
          let linkControl :=
            if bytesLeft > maxPayload then
              if offset = 0 then linkControlMoreToFollow else linkControlContinue ||| linkControlMoreToFollow
            else if offset > 0 then linkControlContinue
            else linkControlDone
          let part := (data.drop offset).take payloadLen
          let reportData := part ++ List.replicate (maxPayload - part.length) 0
          let report : Report := ⟨byteOfInt reportDef.id, linkControl, reportData⟩
          match fails log.length with
          | some e => some (.ret (log ++ [report], some e))
          | none => writeFrameLoop defs fails data fuel (log ++ [report]) (offset + payloadLen) (bytesLeft - payloadLen)

/-- hid.go:34-69 `WriteFrame`, observed for `fuel` rounds. -/
def writeFrameFor (fuel : Nat) (defs : List ReportDef) (fails : Fails) (log : List Report) (data : Bytes) :
    Option (Out (List Report × Option Err)) :=
  writeFrameLoop defs fails data fuel log 0 data.length

/-- hid.go:88-120 `(*Decoder).ReadFrame`, the loop. The report reader is the list of the results of its coming
`ReadReport` calls, `io.EOF` after that. Result: the reader, the decoder's buffer, and the frame or the error.
The frame is a slice of the buffer. `report.Data[:n]` (line 103) panics for negative `n`. -/
def readFrameLoop (grow : Growth) (defs : List ReportDef) :
    List (Except Err Report) → Slice → Out (List (Except Err Report) × Slice × Except Err Slice)
  | [], buf => .ret ([], buf, .error .eof)
  | .error e :: rs, buf => .ret (rs, buf, .error e)
  | .ok report :: rs, buf =>
    match find defs report.id.toNat with
    | none => .ret (rs, buf, .error Err.noReport)
    | some reportDef =>
      if reportDef.maxPayload < 0 then .panic
      else
        let reportData := report.data.take (min report.data.length reportDef.maxPayload.toNat)
        if report.linkControl = linkControlDone then
          let buf := buf.reset.write grow reportData
          .ret (rs, buf, .ok buf)
        else if report.linkControl = linkControlMoreToFollow then
          readFrameLoop grow defs rs (buf.reset.write grow reportData)
        else if report.linkControl = linkControlContinue ||| linkControlMoreToFollow then
          readFrameLoop grow defs rs (buf.write grow reportData)
        else if report.linkControl = linkControlContinue then
          let buf := buf.write grow reportData
          .ret (rs, buf, .ok buf)
        else readFrameLoop grow defs rs buf

/-- hid.go:88-120 `ReadFrame`. -/
def readFrame (grow : Growth) (defs : List ReportDef) (rs : List (Except Err Report)) (buf : Slice) :
    Out (List (Except Err Report) × Slice × Except Err Slice) :=
  readFrameLoop grow defs rs buf.reset

/-! ### report_transport.go -/

/-- report_transport.go:26 `maxRawSize`. -/
abbrev maxRawSize : Nat := 1024

/-- The result of one `Read` of the device: the bytes put into the buffer and the error. See hid/report_transport.go:34. -/
structure ReadRes where
  data : Bytes
  err : Option Err
deriving DecidableEq, Repr

/-- report_transport.go:33-46 `(*rawReportReader).ReadReport` on one `Read` result; a `Read` never returns more than the
1024 bytes it is given room for. (The data aliases the reader's buffer; the decoder copies it before the next read.) -/
def rawReadReport (r : ReadRes) : Except Err Report :=
  let buf := r.data.take maxRawSize
  match r.err with
  | some e => .error e
  | none =>
    match buf with
    | id :: lc :: d0 :: data => .ok ⟨id, lc, d0 :: data⟩
    | _ => .error .noProgress

/-- report_transport.go:60-67 `(*rawReportWriter).WriteReport`: the bytes handed to the device in one `Write`. -/
def rawReportBytes (r : Report) : Bytes := [r.id, r.linkControl] ++ r.data

/-- report_transport.go:65-66 with `(*bytes.Buffer).WriteTo`: outcome from the device's answer `(m, err)`; a count
larger than asked is a panic in `WriteTo`, a smaller one without error is `io.ErrShortWrite`. -/
def rawWriteReport (r : Report) (answer : Nat × Option Err) : Out (Option Err) :=
  if answer.1 > (rawReportBytes r).length then .panic
  else
    match answer.2 with
    | some e => .ret (some e)
    | none => if answer.1 ≠ (rawReportBytes r).length then .ret (some .shortWrite) else .ret none

/-- report_transport.go:18-24 `SingleReport.ReadReport`. -/
def singleReadReport (s : Bytes) : Out Report :=
  index s 0 >>= fun id =>
  index s 1 >>= fun lc =>
  dropOrPanic s 2 >>= fun d => .ret ⟨id, lc, d⟩

end Ipod.Hid
