import Verif.Go.Basic
import Verif.Model.Crc

/-! Model of packet.go -/

namespace Ipod
open Go

/-- packet.go:13 `PacketStartByte`. -/
abbrev packetStartByte : UInt8 := 0x55

/-- packet.go:18 `largePacketMinLen`. -/
abbrev largePacketMinLen : Nat := 256

/-- packet.go:32-45 `parseHeader`: `(payOff, payLen)` or `io.ErrUnexpectedEOF`.
`int(binary.BigEndian.Uint16(data[1:3]))` is `data[1]*256 + data[2]`. -/
def parseHeader (data : Bytes) : Except Err (Nat × Nat) :=
  match data with
  | b0 :: b1 :: b2 :: _ =>
    if b0 = 0x00 then .ok (3, b1.toNat * 256 + b2.toNat)
    else .ok (1, b0.toNat)
  | _ => .error .unexpectedEOF

/-- Result of `parsePacket`/`ReadPacket` without panic: the payload slice or an error. See packet.go:47,64. -/
abbrev PktResult := Except Err Bytes

/-- packet.go:47-62 `parsePacket`: `(pktLen, payload, err)`.
`data[:pktLen]` is Go's slice expression: bounded by the capacity, so it panics only beyond the capacity,
and below it silently extends over the stale bytes behind the frame. The test `len(pkt) < pktLen`
(line 54) is modelled although it can never hold. -/
def parsePacket (data : Slice) : Out (Nat × PktResult) :=
  match parseHeader data.data with
  | .error e => .ret (0, .error e)
  | .ok (payOff, payLen) =>
    let pktLen := payOff + payLen + 1
    data.upTo pktLen >>= fun pkt =>
    if pkt.len < pktLen then .ret (pktLen, .error .unexpectedEOF)
    else if checksum pkt.data ≠ 0x00 then .ret (pktLen, .error Err.checksum)
    else pkt.range payOff (payOff + payLen) >>= fun payload => .ret (pktLen, .ok payload.data)

/-- `bytes.IndexByte(frame, PacketStartByte)` (packet.go:65): position of the first start byte. -/
def indexStart (b : Bytes) : Option Nat := b.findIdx? (· = packetStartByte)

/-- packet.go:64-76 `(*PacketReader).ReadPacket`. The reader state is the unread slice `pd.frame`.
On a parse error the frame stays advanced just past the start byte (line 69). -/
def readPacket (frame : Slice) : Out (Slice × PktResult) :=
  match indexStart frame.data with
  | none => .ret (frame, .error .eof)
  | some next =>
    frame.fromLo (next + 1) >>= fun frame1 =>
    parsePacket frame1 >>= fun r =>
    match r.2 with
    | .error e => .ret (frame1, .error e)
    | .ok payload => frame1.fromLo r.1 >>= fun frame2 => .ret (frame2, .ok payload)

/-- packet.go:88-107 `(*PacketWriter).WritePacket`. The writer state is `pw.frame`.
`byte(len(payload))` and `uint16(len(payload))` truncate. -/
def writePacket (frame : Bytes) (payload : Bytes) : Bytes × Option Err :=
  if payload.length = 0 then (frame, some Err.emptyPacket)
  else
    let frame1 := frame ++ [packetStartByte]
    let pktStart := frame1.length
    let frame2 :=
      if payload.length > largePacketMinLen then
        let l := UInt16.ofNat payload.length
        frame1 ++ ([0x00, (l >>> 8).toUInt8, l.toUInt8] : Bytes)
      else frame1 ++ [UInt8.ofNat payload.length]
    let frame3 := frame2 ++ payload
    (frame3 ++ [checksum (frame3.drop pktStart)], none)

/-- packet.go:82-86 `NewPacketWriter`: empty frame (the 512 byte capacity matters only to callers that append to what `Bytes` returned, see Model/Memory.lean;
`Bytes()` (109-111) returns the visible part). -/
def newPacketWriter : Bytes := []

/-- A sequence of `WritePacket` calls on one writer; errors are ignored by the caller
(as cmd/ipod/main.go:376 does). -/
def writePackets (frame : Bytes) (ps : List Bytes) : Bytes :=
  ps.foldl (fun f p => (writePacket f p).1) frame

end Ipod
