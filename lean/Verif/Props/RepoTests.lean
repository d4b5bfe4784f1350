import Verif.Model.Packet
import Verif.Model.Serde
import Verif.Model.Hid
import Verif.Model.View
import Verif.Lemmas.RealRegistry

/-! The unit tests of the repository, run on the model: a check of the model, not of the properties. Nothing here is a claim. Left out are the
cases of cmd_test.go about types that only the test registers (`CustomPayload`, `uint32`). -/

namespace RepoTests
open Go Ipod Ipod.Hid Ipod.Trace

/-! ### crc_test.go -/

example : checksum [] = 0 := by decide
example : checksum [0x00, 0x00] = 0 := by decide
example : checksum [0xfe, 0x01] = 0x01 := by decide
example : checksum [0xff, 0xff, 0x02] = 0x00 := by decide
example : checksum [0x04, 0x00, 0x11, 0x00, 0x01] = 0xea := by decide
example : checksum [0x0d, 0x00, 0x4c, 0x00, 0x04, 0x00, 0x00, 0x00, 0x00, 0x06, 0x3d, 0xef, 0x73, 0xff] = 0xff := by decide

/-! ### packet_test.go -/

def largeData : Bytes := List.replicate 255 0xee

/-- An error, whichever. -/
def failed {α : Type} : Except Err α → Bool
  | .ok _ => false
  | .error _ => true

/-- The first packet of a frame in a slice with this spare capacity. -/
def firstPacket (data spare : Bytes) : Out PktResult := readPacket ⟨data, spare⟩ >>= fun r => .ret r.2

/-- It fails. -/
def noPacket (data spare : Bytes) : Bool :=
  match firstPacket data spare with
  | .ret r => failed r
  | .panic => false

example : writePacket newPacketWriter [] = ([], some Err.emptyPacket) := by decide
example : writePacket newPacketWriter [0x01, 0x02, 0xfd] = ([0x55, 0x03, 0x01, 0x02, 0xfd, 0xfd], none) := by decide
example : writePacket newPacketWriter ([0x01, 0x02] ++ largeData) =
    ([0x55, 0x00, 0x01, 0x01, 0x01, 0x02] ++ (largeData ++ [0xe9]), none) := by decide +kernel

example : firstPacket [0x55, 0x02, 0x01, 0x02, 0xfb] [] = .ret (.ok [0x01, 0x02]) := by decide
example : firstPacket [0x55, 0x03, 0x01, 0x02, 0xfd, 0xfd] [] = .ret (.ok [0x01, 0x02, 0xfd]) := by decide
example : noPacket [0x55, 0x03, 0x01, 0x02, 0xfd, 0x22] [] := by decide
example : noPacket [0xff, 0x03, 0x01, 0x02, 0xfd, 0xfd] [] := by decide
example : firstPacket ([0x55, 0x00, 0x01, 0x01, 0x01, 0x02] ++ (largeData ++ [0xe9])) [] = .ret (.ok ([0x01, 0x02] ++ largeData)) := by
  decide +kernel

/-- `large-with-data-short`: the packet announces one byte more than there is. The test passes because `append` has left room behind the
262 bytes (their size class is 288); without it the reader would panic. -/
example : noPacket ([0x55, 0x00, 0x01, 0x02, 0x01, 0x02] ++ (largeData ++ [0xe9])) (List.replicate 26 0) := by decide +kernel
example : firstPacket ([0x55, 0x00, 0x01, 0x02, 0x01, 0x02] ++ (largeData ++ [0xe9])) [] = .panic := by decide +kernel
example : noPacket ([0x55, 0x00, 0x01, 0x01, 0x01, 0x02] ++ (largeData ++ [0x22])) [] := by decide +kernel
example : noPacket [0x55] [] := by decide

/-- `TestPacketRoundtrip`: "packet1" and "_packet2". -/
example : let p1 : Bytes := [0x70, 0x61, 0x63, 0x6b, 0x65, 0x74, 0x31]
    let p2 : Bytes := [0x5f, 0x70, 0x61, 0x63, 0x6b, 0x65, 0x74, 0x32]
    (readPacket ⟨writePackets newPacketWriter [p1, p2], []⟩ >>= fun r => readPacket r.1 >>= fun r' => .ret (r.2, r'.2)) =
      .ret (.ok p1, .ok p2) := by decide +kernel

/-! ### cmd_test.go -/

/-- `no-tr-no-payload`. -/
example : failed (marshalCmd false ⟨newLingoCmdID 0x01 0x01, none, .nil⟩).2 := by decide

/-- `no-tr-unknown-payload`, `with-tr-unknown-payload` (both without transactions). -/
example : unmarshalCmd false [0xee, 0x01] = .ret (false, ⟨newLingoCmdID 0xee 0x01, none, .unknown []⟩, some Err.unknownCmd) := by decide +kernel
example : unmarshalCmd false [0xee, 0x01, 0x00, 0x03] =
    .ret (false, ⟨newLingoCmdID 0xee 0x01, none, .unknown [0x00, 0x03]⟩, some Err.unknownCmd) := by decide +kernel

/-! ### hid_test.go -/

def testReportDefs1 : List ReportDef := [⟨0x01, 2, .accIn⟩]
def testReportDefs2 : List ReportDef := [⟨0x01, 2, .accIn⟩, ⟨0x02, 3, .accIn⟩]
def testReportDefs3 : List ReportDef := [⟨0x01, 4, .accIn⟩]

/-- `WriteFrame` to a writer that takes everything. -/
def encoded (defs : List ReportDef) (data : Bytes) : Option (Out (List Report × Option Err)) := writeFrameFor 10 defs (fun _ => none) [] data

/-- The frame of these reports. -/
def decoded (defs : List ReportDef) (rs : List Report) : Out (Except Err Bytes) :=
  readFrame (fun _ n => n) defs (rs.map .ok) ⟨[], []⟩ >>= fun x => .ret (x.2.2.map (·.data))

/-- The cases of `TestHidDecoder`; those of `TestEncoder` are the same but for the last, which is padded. -/
def hidCases : List (List ReportDef × Bytes × List Report) :=
  [(testReportDefs1, [1], [⟨1, 0, [1]⟩]),
   (testReportDefs1, [1, 2], [⟨1, 2, [1]⟩, ⟨1, 1, [2]⟩]),
   (testReportDefs1, [1, 2, 3], [⟨1, 2, [1]⟩, ⟨1, 3, [2]⟩, ⟨1, 1, [3]⟩]),
   (testReportDefs2, [1], [⟨1, 0, [1]⟩]),
   (testReportDefs2, [1, 2], [⟨2, 0, [1, 2]⟩]),
   (testReportDefs2, [1, 2, 3], [⟨2, 2, [1, 2]⟩, ⟨1, 1, [3]⟩]),
   (testReportDefs3, [1, 2, 0], [⟨1, 0, [1, 2, 0]⟩])]

example : ∀ c ∈ hidCases, encoded c.1 c.2.1 = some (.ret (c.2.2, none)) := by decide +kernel
example : encoded testReportDefs3 [1, 2] = some (.ret ([⟨1, 0, [1, 2, 0]⟩], none)) := by decide +kernel
example : ∀ c ∈ hidCases, decoded c.1 c.2.2 = .ret (.ok c.2.1) := by decide +kernel

/-! ### trace_test.go -/

/-- `TestWriteRead`. -/
def rewritten (m : Msg) : Option (Msg × Option Err) :=
  match writeMsg [] m with
  | (_, some _) => none
  | (t, none) => let r := readMsg (newReader t none) Msg.zero; some (r.2.1, r.2.2)

example : rewritten ⟨0, 0, [0x00]⟩ = some (⟨0, 0, [0x00]⟩, none) := by decide +kernel
example : rewritten ⟨1, 0, [0x00]⟩ = some (⟨1, 0, [0x00]⟩, none) := by decide +kernel
example : rewritten ⟨0xaa, 0, [0x00]⟩ = none := by decide +kernel
example : rewritten ⟨1, 0, []⟩ = none := by decide +kernel

/-- `TestReadWrite`. -/
def reread (t : Bytes) : Option Bytes :=
  match readMsg (newReader t none) Msg.zero with
  | (_, _, some _) => none
  | (_, m, none) => some (writeMsg [] m).1

example : reread [0x3c, 0x20, 0x30, 0x31, 0x20, 0x30, 0x32, 0x20, 0x30, 0x33, 0x0a] =
    some [0x3c, 0x20, 0x30, 0x31, 0x20, 0x30, 0x32, 0x20, 0x30, 0x33, 0x0a] := by decide +kernel
example : reread [0x3e, 0x20, 0x30, 0x31, 0x20, 0x30, 0x32, 0x20, 0x30, 0x33, 0x0a] =
    some [0x3e, 0x20, 0x30, 0x31, 0x20, 0x30, 0x32, 0x20, 0x30, 0x33, 0x0a] := by decide +kernel
example : reread [0x3f, 0x20, 0x30, 0x31, 0x20, 0x30, 0x32, 0x20, 0x30, 0x33, 0x0a] = none := by decide +kernel
example : reread [0x3e, 0x0a] = none := by decide +kernel

/-- `TestTracer`: "ab" written and read. -/
example : tracerWrite [] [0x61, 0x62] ⟨2, none⟩ = ([0x3e, 0x20, 0x36, 0x31, 0x20, 0x36, 0x32, 0x0a], ⟨2, none⟩) := by decide +kernel
example : (tracerRead [] ⟨[0x61, 0x62], none⟩).1 = [0x3c, 0x20, 0x36, 0x31, 0x20, 0x36, 0x32, 0x0a] ∧
    (tracerRead [0x78] ⟨[], some .eof⟩).1 = [0x78] := by decide +kernel

end RepoTests
