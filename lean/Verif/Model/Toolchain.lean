import Verif.Model.Server

/-!
# What depends on the Go release

`encoding/binary` treats a nil interface differently from release to release: `binary.Size(nil)` panicked in the releases the
project names (go.mod: 1.13, .travis.yml: 1.15: `reflect.Value.Type` of the zero value) and is -1 in current ones.
The other modules follow the current releases. Here the functions on the way from a packet to that call are written down once
more, for both (`old`). `binary.Write(w, order, nil)` panics in all of them; it is only called for a message that a caller
built without its info (extremote.go:169, dispremote.go:201, 325), see `Model/Any.lean`: neither handlers nor decoders make
one.
-/

namespace Ipod
open Go

/-- `binary.Size(nil)`. See lingo-general/general.go:609,665,733. -/
def sizeOfNil (old : Bool) : Out Int := if old then .panic else .ret (-1)

/-- general.go:627-657: the kinds for which `v.Token` is set before it is looked at; for all others it stays nil. -/
def tokenAllocated (id : TokenID) : Bool :=
  if id.fidType = 0x00 then
    match id.fidSubtype.toNat with
    | 0x00 | 0x01 | 0x02 | 0x03 | 0x04 | 0x05 | 0x07 | 0x08 => true
    | _ => false
  else id.fidType = 0x01

/-- general.go:659-671: a nil token is no `BinaryUnmarshaler`, so its `binary.Size` is asked for. -/
def unmarshalTokenT (old : Bool) (id : TokenID) (data : Bytes) : Out (Except Err FIDToken) :=
  if tokenAllocated id then unmarshalToken id data
  else sizeOfNil old >>= fun n => if n = -1 then .ret (.ok (.raw data)) else .ret (.error Err.invalidType)

/-- general.go:621-673 `(*FIDTokenValue).UnmarshalBinary`. -/
def unmarshalTokenValueT (old : Bool) (data : Bytes) : Out (Except Err FIDTokenValue) :=
  match binRead [.u8, .u8] data with
  | (.error e, _) => .ret (.error e)
  | (.ok (a, b, _), r) =>
    unmarshalTokenT old ⟨a, b⟩ r >>= fun t =>
    match t with
    | .error e => .ret (.error e)
    | .ok t => .ret (.ok ⟨⟨a, b⟩, t⟩)

/-- general.go:694-714 `(*SetFIDTokenValues).UnmarshalBinary`. -/
def unmarshalTokensT (old : Bool) (data : Bytes) : Out (Except Err (List FIDTokenValue)) :=
  match data with
  | [] => .ret (.error .eof)
  | n :: r => unmarshalList (unmarshalTokenValueT old) n.toNat r

/-- The `UnmarshalBinary` methods: only the one of `SetFIDTokenValues` depends on the release. See cmd.go:147-148. -/
def TypeId.unmarshalBinaryT (old : Bool) : (t : TypeId) → Bytes → Option (Out (Except Err t.Val))
  | .gen .SetFIDTokenValues, d => mapVal (fun l => (l, ())) (unmarshalTokensT old d)
  | t, d => t.unmarshalBinary d

/-- cmd.go:147-161. -/
def decodePayloadT (old : Bool) (t : TypeId) (r : Bytes) : Out (Except Err t.Val) :=
  match t.unmarshalBinaryT old r with
  | some x => x
  | none => .ret (binRead t.schema r).1

/-- cmd.go:123-163 `UnmarshalCmd`. -/
def unmarshalCmdT (old : Bool) (trxEnabled : Bool) (pkt : Bytes) : Out (Bool × Command × Option Err) :=
  match unmarshalLingoCmdID pkt with
  | (.error e, _) => .ret (trxEnabled, Command.zero, some e)
  | (.ok id, r) =>
    let trxEnabled := handleCmdID trxEnabled id
    match registry.lookup TypeId.size id r.length trxEnabled with
    | none => .ret (trxEnabled, ⟨id, none, .unknown r⟩, some Err.unknownCmd)
    | some (t, false) =>
      decodePayloadT old t r >>= fun p =>
      match p with
      | .error e => .ret (trxEnabled, ⟨id, none, .nil⟩, some e)
      | .ok v => .ret (trxEnabled, ⟨id, none, .ptr t v⟩, none)
    | some (t, true) =>
      match binRead [.u16] r with
      | (.error e, _) => .ret (trxEnabled, ⟨id, none, .nil⟩, some e)
      | (.ok (tr, _), r) =>
        decodePayloadT old t r >>= fun p =>
        match p with
        | .error e => .ret (trxEnabled, ⟨id, some tr, .nil⟩, some e)
        | .ok v => .ret (trxEnabled, ⟨id, some tr, .ptr t v⟩, none)

/-- main.go:346-360, the packet loop. -/
def readCommandsT (old : Bool) (mode : Bool) (frame : Slice) : Out (Bool × List Command) :=
  match _h : readPacket frame with
  | .panic => .panic
  | .ret (rest, .error e) => if e = .eof then .ret (mode, []) else readCommandsT old mode rest
  | .ret (rest, .ok pkt) =>
    unmarshalCmdT old mode pkt >>= fun x =>
    readCommandsT old x.1 rest >>= fun y => .ret (y.1, x.2.1 :: y.2)
termination_by frame.data.length
decreasing_by
  all_goals
    have hp := readPacket_progress frame.data frame.spare _ _ _h
    simp only [ne_eq, reduceCtorEq, false_and, not_false_eq_true, true_and, false_or, Except.error.injEq] at hp
    have hp : ∃ pre, frame.data = pre ++ rest.data ∧ (0x55 : UInt8) ∈ pre := by
      first
        | exact hp.2.2
        | (rcases hp with ⟨h1, _⟩ | ⟨_, _, _, h2⟩
           · contradiction
           · exact h2)
    obtain ⟨pre, h4, h5⟩ := hp
    have := List.length_pos_of_mem h5
    rw [h4, List.length_append]
    omega

/-- main.go:345-380: one frame. -/
def processFrameT {σ : Type} (old : Bool) (D : Device σ) (clock : Clock) (s : Srv σ) (frame : Slice) :
    Out (Srv σ × List Bytes) :=
  readCommandsT old s.mode frame >>= fun x =>
  handleAll D clock x.2 { s.ctx with out := [] } >>= fun c =>
  let y := sendAll x.1 c.out
  .ret (⟨y.1, { c with out := [] }⟩, y.2)

/-- main.go:332-384 `processFrames`. Simplification: the encoder is the one of the current releases. With `old` it would be
different for a token acknowledgement without body (general.go:734), which is only made for a token of unknown kind. -/
def processFramesT {σ : Type} (old : Bool) (D : Device σ) (clock : Clock) :
    List (Except Err Slice) → Srv σ → Out (Srv σ × List Bytes)
  | [], s => .ret (s, [])
  | .error .eof :: _, s => .ret (s, [])
  | .error _ :: reads, s => processFramesT old D clock reads s
  | .ok frame :: reads, s =>
    processFrameT old D clock s frame >>= fun x =>
    processFramesT old D clock reads x.1 >>= fun y => .ret (y.1, x.2 ++ y.2)

/-! ### Encoding an acknowledgement without body -/

/-- general.go:721-743 `(*FIDTokenValueACK).MarshalBinary`. -/
def marshalAckT (old : Bool) (v : FIDTokenValueACK) : Out (Except Err Bytes) :=
  match v.ack with
  | none => sizeOfNil old >>= fun _ => .ret (.error Err.unknownAck)
  | some b => .ret (.ok ([v.id.fidType, v.id.fidSubtype] ++ b))

end Ipod
