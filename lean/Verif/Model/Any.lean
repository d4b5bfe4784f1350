import Verif.Model.Toolchain

/-!
# Payloads and infos of any Go type

`Command.Payload` and five fields of messages are of type `interface{}`: a caller may put anything there. The other modules model
the values that decoders and handlers put there. Here: also nil, nil pointers, messages themselves in place of pointers to
them, byte slices, structs of other types and values with a `MarshalBinary` of their own. `old` says which Go release
(Model/Toolchain.lean). Left out: values of other kinds (numbers, maps, channels, ...).
-/

namespace Ipod.Any
open Go

/-- What an interface field holds. See lingo-general/general.go:592-595,716-719. -/
inductive Held where
  /-- nil -/
  | nil
  /-- a nil pointer to a struct without `MarshalBinary` -/
  | nilPtr
  /-- a `[]byte` -/
  | slice (b : Bytes)
  /-- a struct with these fields, or a pointer to it, without `MarshalBinary` -/
  | struct (fs : List FTy) (v : SVal fs)
  /-- the same with a `MarshalBinary`, which returns `r` -/
  | marshaler (r : Except Err Bytes) (fs : List FTy) (v : SVal fs)

/-- `binary.Size`; `none` is -1. A nil pointer is dereferenced to the same invalid value as nil. See lingo-general/general.go:609,733. -/
def Held.size (old : Bool) : Held → Out (Option Nat)
  | .nil | .nilPtr => if old then .panic else .ret none
  | .slice b => .ret (some b.length)
  | .struct fs _ | .marshaler _ fs _ => .ret (structSize fs)

/-- `binary.Write` to a `bytes.Buffer`: the bytes written or the error. For nil the text of the error is made with
`reflect.TypeOf(nil).String()`, which panics. A `MarshalBinary` is not asked. See lingo-general/general.go:610,734. -/
def Held.write (old : Bool) : Held → Out (Except Err Bytes)
  | .nil => .panic
  | .nilPtr => if old then .panic else .ret (.error Err.invalidType)
  | .slice b => .ret (.ok b)
  | .struct fs v | .marshaler _ fs v => .ret (binWrite fs v)

/-- extremote.go:164-173 `ReturnIndexedPlayingTrackInfo.MarshalBinary`. -/
def marshalExtInfo (old : Bool) (ty : UInt8) (info : Held) : Out (Except Err Bytes) :=
  info.write old >>= fun r =>
  match r with
  | .error e => .ret (.error e)
  | .ok b => .ret (.ok ([ty] ++ b))

/-- dispremote.go:198-203 `(*RetiPodStateInfo).MarshalBinary` and 322-327 `(*RetIndexedPlayingTrackInfo).MarshalBinary`. -/
def marshalDispInfo (old : Bool) (ty : UInt8) (info : Held) : Out (Except Err Bytes) :=
  info.write old >>= fun r => .ret (.ok ([ty] ++ writeIgnoring r))

/-- general.go:597-619 `(*FIDTokenValue).MarshalBinary` and 721-743 `(*FIDTokenValueACK).MarshalBinary`, which are the same but for
the error. The case of a `[]byte` (612, 737) is never reached, it has a size. -/
def marshalPart (old : Bool) (unknown : Err) (id : TokenID) (part : Held) : Out (Except Err Bytes) :=
  let body : Out (Except Err Bytes) :=
    match part with
    | .marshaler r _ _ => .ret r
    | part =>
      part.size old >>= fun n =>
      match n with
      | some _ => part.write old
      | none => .ret (.error unknown)
  body >>= fun r =>
  match r with
  | .error e => .ret (.error e)
  | .ok b => .ret (.ok ([id.fidType, id.fidSubtype] ++ b))

/-- Loop of general.go:683-690, 766-773. -/
def marshalParts (old : Bool) (unknown : Err) : List (TokenID × Held) → Out (Except Err Bytes)
  | [] => .ret (.ok [])
  | (id, part) :: l =>
    marshalPart old unknown id part >>= fun r =>
    match r with
    | .error e => .ret (.error e)
    | .ok b =>
      marshalParts old unknown l >>= fun rest =>
      match rest with
      | .error e => .ret (.error e)
      | .ok rest => .ret (.ok ([UInt8.ofNat b.length] ++ b ++ rest))

/-- general.go:679-692 `(*SetFIDTokenValues).MarshalBinary`, 762-775 `RetFIDTokenValueACKs.MarshalBinary`. -/
def marshalCounted (old : Bool) (unknown : Err) (l : List (TokenID × Held)) : Out (Except Err Bytes) :=
  marshalParts old unknown l >>= fun r =>
  match r with
  | .error e => .ret (.error e)
  | .ok b => .ret (.ok ([UInt8.ofNat l.length] ++ b))

/-- What `Command.Payload` holds. See cmd.go:32. -/
inductive Payload where
  /-- nil, a pointer to a message, or an `UnknownPayload`, as in the other modules -/
  | of (p : Ipod.Payload)
  /-- a message itself -/
  | value (t : TypeId) (v : t.Val)
  /-- a nil pointer to a message -/
  | nilPtr (t : TypeId)
  /-- a pointer to a `ReturnIndexedPlayingTrackInfo` with this info -/
  | extInfo (ty : UInt8) (info : Held)
  /-- a pointer to a `RetiPodStateInfo` with this info -/
  | dispState (ty : UInt8) (info : Held)
  /-- a pointer to a `RetIndexedPlayingTrackInfo` with this info -/
  | dispTrack (ty : UInt8) (info : Held)
  /-- a pointer to a `SetFIDTokenValues` with these tokens -/
  | tokens (l : List (TokenID × Held))
  /-- a pointer to a `RetFIDTokenValueACKs` with these acknowledgements -/
  | acks (l : List (TokenID × Held))
  /-- a pointer to a struct of another type, or one itself -/
  | other (ptr : Bool) (own : Option (Except Err Bytes)) (fs : List FTy) (v : SVal fs)

/-- The messages whose `MarshalBinary` is a method of the pointer only (general.go:679, audio.go:48, simpleremote.go:46, 122,
dispremote.go:198, 322); the others have it with a value receiver (general.go:142, 165, 182, 762, extremote.go:164, 208, 319,
336, 353). -/
def pointerOnly : TypeId → Bool
  | .gen .SetFIDTokenValues => true
  | .aud .RetAccSampleRateCaps => true
  | .sim .ContextButtonStatus | .sim .VideoButtonStatus | .sim .AudioButtonStatus => true
  | .disp .RetiPodStateInfo | .disp .RetIndexedPlayingTrackInfo => true
  | _ => false

/-- Has a `MarshalBinary`, for the pointer. See cmd.go:106. -/
def hasMarshal : TypeId → Bool
  | .gen .ReturniPodName | .gen .ReturniPodSerialNum | .gen .ReturniPodModelNum | .gen .RetFIDTokenValueACKs => true
  | .ext .ReturnIndexedPlayingTrackInfo | .ext .RetArtworkFormats | .ext .ReturnIndexedPlayingTrackTitle => true
  | .ext .ReturnIndexedPlayingTrackArtistName | .ext .ReturnIndexedPlayingTrackAlbumName => true
  | t => pointerOnly t

/-- cmd.go:102-117: encoding of the payload. With a nil pointer `MarshalBinary` is called if there is one, and dereferences it. -/
def encodePayload (old : Bool) : Payload → Out (Except Err Bytes)
  | .of p => .ret (Ipod.encodePayload p)
  | .value t v => if pointerOnly t then .ret (binWrite t.schema v) else .ret (Ipod.encodePayload (.ptr t v))
  | .nilPtr t => if hasMarshal t then .panic else Held.nilPtr.write old
  | .extInfo ty info => marshalExtInfo old ty info
  | .dispState ty info => marshalDispInfo old ty info
  | .dispTrack ty info => marshalDispInfo old ty info
  | .tokens l => marshalCounted old Err.unknownToken l
  | .acks l => marshalCounted old Err.unknownAck l
  | .other _ (some r) _ _ => .ret r
  | .other _ none fs v => .ret (binWrite fs v)

/-- cmd.go:90-121 `MarshalCmd`, as `Ipod.marshalCmd`. -/
def marshalCmd (old : Bool) (trxEnabled : Bool) (id : LingoCmdID) (trx : Option UInt16) (p : Payload) :
    Out (Bool × Except Err Bytes) :=
  let pktBuf := marshalLingoCmdID id
  let trxEnabled := handleCmdID trxEnabled id
  let pktBuf :=
    match trx with
    | some t => if trxEnabled then pktBuf ++ FTy.enc .u16 t else pktBuf
    | none => pktBuf
  encodePayload old p >>= fun r =>
  match r with
  | .error e => .ret (trxEnabled, .error e)
  | .ok b => .ret (trxEnabled, .ok (pktBuf ++ b))

/-- lingo.go:138-145 `LookupID`, as `buildCommand` uses it: the id, or nothing for an unregistered type. -/
def lookupID : Payload → Out (Option LingoCmdID)
  | .of .nil | .of (.unknown _) | .value _ _ | .other false _ _ _ => .panic
  | .of (.ptr t _) | .nilPtr t => .ret (registry.lookupID t)
  | .extInfo _ _ => .ret (registry.lookupID (.ext .ReturnIndexedPlayingTrackInfo))
  | .dispState _ _ => .ret (registry.lookupID (.disp .RetiPodStateInfo))
  | .dispTrack _ _ => .ret (registry.lookupID (.disp .RetIndexedPlayingTrackInfo))
  | .tokens _ => .ret (registry.lookupID (.gen .SetFIDTokenValues))
  | .acks _ => .ret (registry.lookupID (.gen .RetFIDTokenValueACKs))
  | .other true _ _ _ => .ret none

/-- A command with any payload. See cmd.go:28-33. -/
structure Command where
  id : LingoCmdID
  trx : Option UInt16
  payload : Payload

/-- cmd.go:165-185 `BuildCommand` and `Respond` with a `CmdBuffer`. -/
def respond (reqTrx : Option UInt16) (out : List Command) (payload : Payload) : Out (List Command) :=
  lookupID payload >>= fun id =>
  match id with
  | none => .ret out
  | some id => .ret (out ++ [⟨id, reqTrx, payload⟩])

end Ipod.Any
