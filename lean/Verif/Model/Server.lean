import Verif.Model.Handlers
import Verif.Model.Hid
import Verif.Model.Packet
import Verif.Lemmas.PacketWrite

/-!
# Model of the server loop (cmd/ipod/main.go:332-384 `processFrames`)

The log is in `Model/Log.lean`. A `FrameReadWriter` (transport.go) is modelled by the results of its `ReadFrame` calls, given
beforehand (they may depend on what was written: the properties hold for all of them), and by the list of the frames
handed to `WriteFrame`, whose error is only logged.
-/

namespace Ipod
open Go

/-- What lives across frames: `serde` (main.go:333), `devGeneral` (386) and the package variables. -/
structure Srv (σ : Type) where
  mode : Bool
  ctx : Ctx σ

/-- main.go:346-360: the packets of a frame are read until `io.EOF`; packets in error are skipped (354), and the
command `UnmarshalCmd` returns is kept even if it reports an error (357-359). Result: the mode of the serializer and
the commands. -/
def readCommands (mode : Bool) (frame : Slice) : Out (Bool × List Command) :=
  match _h : readPacket frame with
  | .panic => .panic
  | .ret (rest, .error e) => if e = .eof then .ret (mode, []) else readCommands mode rest
  | .ret (rest, .ok pkt) =>
    unmarshalCmd mode pkt >>= fun x =>
    readCommands x.1 rest >>= fun y => .ret (y.1, x.2.1 :: y.2)
termination_by frame.data.length
decreasing_by
  all_goals
    have hp := readPacket_progress frame.data frame.spare _ _ _h
    simp only [ne_eq, reduceCtorEq, false_and, not_false_eq_true, true_and, false_or, Except.error.injEq] at hp
    have hp : ∃ pre, frame.data = pre ++ rest.data ∧ (0x55 : UInt8) ∈ pre := by
      first
        | exact hp.2.2
        | (rcases hp with ⟨h1, _⟩ | ⟨_, _, _, h2⟩
           · contradiction
           · exact h2)
    obtain ⟨pre, h4, h5⟩ := hp
    have := List.length_pos_of_mem h5
    rw [h4, List.length_append]
    omega

/-- main.go:368-380: every command goes out in a frame of its own. `MarshalCmd` returns nil on error, on which
`WritePacket` fails (376, ignored), so that an empty frame is handed to `WriteFrame`. Result: the mode and the frames. -/
def sendAll (mode : Bool) : List Command → Bool × List Bytes
  | [] => (mode, [])
  | cmd :: cmds =>
    let (mode, r) := marshalCmd mode cmd
    let outPacket := match r with
      | .ok p => p
      | .error _ => []
    let outFrame := (writePacket newPacketWriter outPacket).1
    let (mode, frames) := sendAll mode cmds
    (mode, outFrame :: frames)

/-- main.go:345-380: the treatment of one frame; the frames handed to `WriteFrame`. -/
def processFrame {σ : Type} (D : Device σ) (clock : Clock) (s : Srv σ) (frame : Slice) : Out (Srv σ × List Bytes) :=
  readCommands s.mode frame >>= fun x =>
  handleAll D clock x.2 { s.ctx with out := [] } >>= fun c =>
  let y := sendAll x.1 c.out
  .ret (⟨y.1, { c with out := [] }⟩, y.2)

/-- main.go:332-384 `processFrames`, on a transport whose coming `ReadFrame` calls give the listed results, then
`io.EOF`. -/
def processFrames {σ : Type} (D : Device σ) (clock : Clock) :
    List (Except Err Slice) → Srv σ → Out (Srv σ × List Bytes)
  | [], s => .ret (s, [])
  | .error .eof :: _, s => .ret (s, [])
  | .error _ :: reads, s => processFrames D clock reads s
  | .ok frame :: reads, s =>
    processFrame D clock s frame >>= fun x =>
    processFrames D clock reads x.1 >>= fun y => .ret (y.1, x.2 ++ y.2)

/-- main.go:333, 386 and the initial package variables: the server at its start. -/
def Srv.init {σ : Type} (dev : σ) : Srv σ := ⟨false, ⟨dev, [], 0, [], 0⟩⟩

/-! ### On the HID transport (main.go:159-161, 185-187) -/

open Hid

/-- `n` successive `ReadFrame` calls on a `hid.Decoder` with the buffer `buf` (main.go:336). -/
def frameReads (grow : Growth) (defs : List ReportDef) :
    Nat → List (Except Err Report) → Slice → Out (List (Except Err Slice))
  | 0, _, _ => .ret []
  | n + 1, rs, buf =>
    readFrame grow defs rs buf >>= fun x =>
    frameReads grow defs n x.1 x.2.1 >>= fun more => .ret (x.2.2 :: more)

/-- main.go:159-161 `serve` (and 185-187 `replay`): `processFrames` on the HID transport over a device whose coming
`Read` calls give `reads`. A call of `ReadFrame` takes at least one of them, so after `reads.length` calls there is
only `io.EOF` left (`Props.C57_reads_exhausted`). The decoder's buffer (hid.go:74) is empty at first. -/
def serve {σ : Type} (D : Device σ) (clock : Clock) (grow : Growth) (defs : List ReportDef) (reads : List ReadRes)
    (s : Srv σ) : Out (Srv σ × List Bytes) :=
  frameReads grow defs reads.length (reads.map rawReadReport) ⟨[], []⟩ >>= fun frames => processFrames D clock frames s

end Ipod
