import Verif.Model.Alias

/-!
# Packet writer, packet reader and raw reports on memory

`Model.Packet` and `Model.Hid` treat the slices handed to and returned by the library as values. Here they are what they are
in Go: headers pointing into arrays which several of them share. The reader side of packets is in `Model.Alias`
(`Alias.readPacket`); here are the packet writer, the reports of the raw reader and of the encoder, and what a caller can do
with a slice: look at it, cut it, store into it, append to it.
-/

namespace Ipod.Memory
open Go Ipod.Alias

/-- Storing `p` into an array from a position on; the array keeps its size (callers stay within it). See packet.go:93-105. -/
def store (m : Mem) (arr off : Nat) (p : Bytes) : Mem :=
  m.modify arr fun a => a.take off ++ p ++ a.drop (off + p.length)

/-- The built-in `append(s, p...)`: in place if the capacity suffices, else in a new array, whose capacity (at least what is
needed) is up to the runtime. The bytes `p` are the ones seen before anything is stored. See packet.go:93-105. -/
def append (grow : Growth) (m : Mem) (s : Ref) (p : Bytes) : Mem × Ref :=
  if s.len + p.length ≤ s.cap then
    (store m s.arr (s.off + s.len) p, { s with len := s.len + p.length })
  else
    let needed := s.len + p.length
    (m ++ [content m s ++ p ++ List.replicate (grow s.cap needed - needed) 0],
      ⟨m.length, 0, needed, max (grow s.cap needed) needed⟩)

/-- packet.go:82-86 `NewPacketWriter`: `make([]byte, 0, 512)`. -/
def newPacketWriter (m : Mem) : Mem × Ref := (m ++ [List.replicate 512 0], ⟨m.length, 0, 0, 512⟩)

/-- packet.go:88-107 `(*PacketWriter).WritePacket`; `frame` is `pw.frame`. -/
def writePacket (grow : Growth) (m : Mem) (frame payload : Ref) : Mem × Ref × Option Err :=
  if payload.len = 0 then (m, frame, some Err.emptyPacket)
  else
    let (m, frame) := append grow m frame [packetStartByte]
    let pktStart := frame.len
    let (m, frame) :=
      if payload.len > largePacketMinLen then
        let l := UInt16.ofNat payload.len
        append grow m frame [0x00, (l >>> 8).toUInt8, l.toUInt8]
      else append grow m frame [UInt8.ofNat payload.len]
    let (m, frame) := append grow m frame (content m payload)
    let (m, frame) := append grow m frame [checksum ((content m frame).drop pktStart)]
    (m, frame, none)

/-- What a caller of a packet writer does: make an array of its own, cut one of the slices it holds (`s[lo:hi]` within its
length), write one as a packet, ask for `Bytes()`. Slices are numbered in the order in which they were obtained. See packet.go:82-111. -/
inductive Step where
  | make (b : Bytes)
  | cut (i lo hi : Nat)
  | write (i : Nat)
  | bytes
deriving DecidableEq, Repr

/-- The memory, the writer's `frame` and the slices the caller holds. See packet.go:78-80. -/
structure Held where
  mem : Mem
  frame : Ref
  slices : List Ref
deriving DecidableEq, Repr

/-- The nil slice, for an index beyond those the caller holds. See packet.go:78-80. -/
def nilRef : Ref := ⟨0, 0, 0, 0⟩

/-- One step of the caller, with what `WritePacket` answers. Cutting beyond the length is not considered: bounds are
brought within it. See packet.go:88-111. -/
def Held.step (grow : Growth) (h : Held) : Step → Held × Option Err
  | .make b => ({ h with mem := h.mem ++ [b], slices := h.slices ++ [⟨h.mem.length, 0, b.length, b.length⟩] }, none)
  | .cut i lo hi =>
    let s := h.slices.getD i nilRef
    let hi := min hi s.len
    let lo := min lo hi
    ({ h with slices := h.slices ++ [⟨s.arr, s.off + lo, hi - lo, s.cap - lo⟩] }, none)
  | .write i =>
    let (m, f, e) := writePacket grow h.mem h.frame (h.slices.getD i nilRef)
    ({ h with mem := m, frame := f }, e)
  | .bytes => ({ h with slices := h.slices ++ [h.frame] }, none)

/-- Many steps, with the answers. See packet.go:88-111. -/
def Held.run (grow : Growth) (h : Held) : List Step → Held × List (Option Err)
  | [] => (h, [])
  | s :: ss => (((h.step grow s).1.run grow ss).1, (h.step grow s).2 :: ((h.step grow s).1.run grow ss).2)

/-- A caller with a new writer. See packet.go:82-86. -/
def Held.start : Held := ⟨(newPacketWriter []).1, (newPacketWriter []).2, []⟩

/-! ### Reports -/

/-- A report on memory (hid.go:8-12). -/
structure Report where
  id : UInt8
  linkControl : UInt8
  data : Ref
deriving DecidableEq, Repr

/-- The report as it looks now. See hid/hid.go:8-12. -/
def Report.now (m : Mem) (r : Report) : Hid.Report := ⟨r.id, r.linkControl, content m r.data⟩

/-- One `Read` into a buffer of 1024 bytes: what the buffer holds afterwards (a `Read` may use all of it as scratch space),
how many bytes are said to be read, and the error. See hid/report_transport.go:34. -/
structure Fill where
  buf : Bytes
  n : Nat
  err : Option Err
deriving DecidableEq, Repr

/-- report_transport.go:33-46 `(*rawReportReader).ReadReport`; the reader's buffer is array `arr`. The count is within the
buffer, which has 1024 bytes (report_transport.go:48-53). -/
def rawReadReport (m : Mem) (arr : Nat) (r : Fill) : Mem × Except Err Report :=
  let m := store m arr 0 r.buf
  match r.err with
  | some e => (m, .error e)
  | none =>
    if r.n < 3 then (m, .error .noProgress)
    else (m, .ok ⟨(m.getD arr []).getD 0 0, (m.getD arr []).getD 1 0, ⟨arr, 2, r.n - 2, Hid.maxRawSize - 2⟩⟩)

/-- Reports read one after another; the caller keeps all of them. See hid/report_transport.go:33-46. -/
def rawReadReports (m : Mem) (arr : Nat) : List Fill → Mem × List (Except Err Report)
  | [] => (m, [])
  | r :: rs =>
    let x := rawReadReport m arr r
    let y := rawReadReports x.1 arr rs
    (y.1, x.2 :: y.2)

/-- hid.go:88-120 `ReadFrame` over a raw reader, the data of each report being taken from the reader's buffer when it is
written to the decoder's (as `Hid.readFrameLoop`). -/
def readFrameLoop (grow : Growth) (defs : List Hid.ReportDef) (arr : Nat) :
    List Fill → Mem → Slice → Out (List Fill × Mem × Slice × Except Err Slice)
  | [], m, buf => .ret ([], m, buf, .error .eof)
  | r :: rs, m, buf =>
    match rawReadReport m arr r with
    | (m, .error e) => .ret (rs, m, buf, .error e)
    | (m, .ok report) =>
      match Hid.find defs report.id.toNat with
      | none => .ret (rs, m, buf, .error Err.noReport)
      | some reportDef =>
        if reportDef.maxPayload < 0 then .panic
        else
          let reportData := (content m report.data).take (min report.data.len reportDef.maxPayload.toNat)
          if report.linkControl = Hid.linkControlDone then
            let buf := buf.reset.write grow reportData
            .ret (rs, m, buf, .ok buf)
          else if report.linkControl = Hid.linkControlMoreToFollow then
            readFrameLoop grow defs arr rs m (buf.reset.write grow reportData)
          else if report.linkControl = Hid.linkControlContinue ||| Hid.linkControlMoreToFollow then
            readFrameLoop grow defs arr rs m (buf.write grow reportData)
          else if report.linkControl = Hid.linkControlContinue then
            let buf := buf.write grow reportData
            .ret (rs, m, buf, .ok buf)
          else readFrameLoop grow defs arr rs m buf

/-- hid.go:34-69 `WriteFrame` to a writer that keeps the reports (as `Hid.writeFrameLoop`): each report has an array of its
own (line 54), the frame is copied into it (line 55). `none`: not finished within `fuel` rounds. -/
def writeFrameLoop (defs : List Hid.ReportDef) (fails : Hid.Fails) (frame : Ref) :
    Nat → Mem → Nat → List Report → Option (Out (Mem × List Report × Option Err))
  | 0, _, _, _ => none
  | fuel + 1, m, offset, log =>
    let bytesLeft := frame.len - offset
    if bytesLeft = 0 then some (.ret (m, log, none))
    else
      match Hid.pick defs bytesLeft .accIn with
      | none => some (.ret (m, log, some Err.noReport))
      | some d =>
        if d.maxPayload < 0 then some .panic
        else
          let maxP := d.maxPayload.toNat
          let payloadLen := if bytesLeft > maxP then maxP else bytesLeft
          let linkControl :=
            if bytesLeft > maxP then
              if offset = 0 then Hid.linkControlMoreToFollow else Hid.linkControlContinue ||| Hid.linkControlMoreToFollow
            else if offset > 0 then Hid.linkControlContinue else Hid.linkControlDone
          let part := ((content m frame).drop offset).take payloadLen
          let reportData := part ++ List.replicate (maxP - payloadLen) 0
          let report : Report := ⟨Hid.byteOfInt d.id, linkControl, ⟨m.length, 0, maxP, maxP⟩⟩
          match fails log.length with
          | some e => some (.ret (m ++ [reportData], log ++ [report], some e))
          | none => writeFrameLoop defs fails frame fuel (m ++ [reportData]) (offset + payloadLen) (log ++ [report])

end Ipod.Memory
