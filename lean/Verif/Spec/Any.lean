import Verif.Spec.Encode
import Verif.Spec.Serde
import Verif.Model.Any

/-!
# Specification: what becomes of any payload

`Sends p b`: encoding `p` gives the bytes `b` (behind id and transaction). `Crashes old p`: encoding it panics.
-/

namespace Spec.Any
open Go Spec Ipod Ipod.Any

/-- The bytes of what an info field holds, if its size is fixed. A `MarshalBinary` it may have does not matter. -/
inductive InfoBytes : Held → Bytes → Prop
  | slice {b} : InfoBytes (.slice b) b
  | struct {fs v b} : StructBytes fs v b → InfoBytes (.struct fs v) b
  | marshaler {r fs v b} : StructBytes fs v b → InfoBytes (.marshaler r fs v) b

/-- The bytes of what a token or an acknowledgement holds: those of its `MarshalBinary` if it has one. -/
inductive PartBytes : Held → Bytes → Prop
  | slice {b} : PartBytes (.slice b) b
  | struct {fs v b} : StructBytes fs v b → PartBytes (.struct fs v) b
  | marshaler {fs v b} : PartBytes (.marshaler (.ok b) fs v) b

/-- A part behind its id of two bytes. -/
def PartForm (x : TokenID × Held) (b : Bytes) : Prop :=
  ∃ body, PartBytes x.2 body ∧ b = x.1.fidType :: x.1.fidSubtype :: body

/-- Not nil, and no nil pointer. -/
def Present : Held → Prop
  | .nil | .nilPtr => False
  | _ => True

/-- The messages that can be sent by pointer only, although they have a wire form. -/
def ByPointer (t : TypeId) : Prop :=
  t ∈ [TypeId.gen .SetFIDTokenValues, .aud .RetAccSampleRateCaps, .sim .ContextButtonStatus, .sim .VideoButtonStatus,
    .sim .AudioButtonStatus, .disp .RetiPodStateInfo, .disp .RetIndexedPlayingTrackInfo]

/-- The message encodes itself. -/
def OwnCodec (t : TypeId) : Prop := ∀ v : t.Val, t.marshalBinary v ≠ none

/-- The bytes sent for a payload; no bytes: it is not sent. -/
inductive Sends : Any.Payload → Bytes → Prop
  | raw {b} : Sends (.of (.unknown b)) b
  | ptr {t v b} : SentForm t v b → Sends (.of (.ptr t v)) b
  | value {t v b} : ¬ ByPointer t → SentForm t v b → Sends (.value t v) b
  | extInfo {ty h b} : InfoBytes h b → Sends (.extInfo ty h) (ty :: b)
  | dispState {ty h b} : InfoBytes h b → Sends (.dispState ty h) (ty :: b)
  | dispTrack {ty h b} : InfoBytes h b → Sends (.dispTrack ty h) (ty :: b)
  | tokens {l b} : CountedForm (fun k n => n.toNat = k % 256) PartForm l b → Sends (.tokens l) b
  | acks {l b} : CountedForm (fun k n => n.toNat = k % 256) PartForm l b → Sends (.acks l) b
  | own {ptr fs v b} : Sends (.other ptr (some (.ok b)) fs v) b
  | struct {ptr fs v b} : StructBytes fs v b → Sends (.other ptr none fs v) b

/-- What the code sends although it cannot encode the info: the type byte alone. `old` decides whether a nil pointer gets so far. -/
inductive SendsBare (old : Bool) : Any.Payload → Bytes → Prop
  | dispState {ty h} : h ≠ .nil → (old = true → h ≠ .nilPtr) → (∀ b, ¬ InfoBytes h b) → SendsBare old (.dispState ty h) [ty]
  | dispTrack {ty h} : h ≠ .nil → (old = true → h ≠ .nilPtr) → (∀ b, ¬ InfoBytes h b) → SendsBare old (.dispTrack ty h) [ty]

/-- `binary.Write` panics on it. -/
def WriteCrashes (old : Bool) (h : Held) : Prop := h = .nil ∨ old = true ∧ h = .nilPtr

/-- The parts up to a nil one have bytes, and the release is an older one. -/
def PartCrashes (old : Bool) (l : List (TokenID × Held)) : Prop :=
  old = true ∧ ∃ pre x post, l = pre ++ x :: post ∧ (∀ y ∈ pre, ∃ b, PartForm y b) ∧ ¬ Present x.2

/-- Encoding panics. -/
inductive Crashes (old : Bool) : Any.Payload → Prop
  | own {t} : OwnCodec t → Crashes old (.nilPtr t)
  | nilPtr {t} : old = true → Crashes old (.nilPtr t)
  | extInfo {ty h} : WriteCrashes old h → Crashes old (.extInfo ty h)
  | dispState {ty h} : WriteCrashes old h → Crashes old (.dispState ty h)
  | dispTrack {ty h} : WriteCrashes old h → Crashes old (.dispTrack ty h)
  | tokens {l} : PartCrashes old l → Crashes old (.tokens l)
  | acks {l} : PartCrashes old l → Crashes old (.acks l)

/-- Nothing nil where a value is needed: neither a nil pointer to a message, nor a nil info, token or acknowledgement. -/
def Complete : Any.Payload → Prop
  | .nilPtr _ => False
  | .extInfo _ h | .dispState _ h | .dispTrack _ h => Present h
  | .tokens l | .acks l => ∀ x ∈ l, Present x.2
  | _ => True

/-- A pointer, nil or not: what `LookupID` accepts. -/
def IsPointer : Any.Payload → Prop
  | .of .nil | .of (.unknown _) | .value _ _ | .other false _ _ _ => False
  | _ => True

/-- The type of message a payload points to. -/
def messageType : Any.Payload → Option TypeId
  | .of (.ptr t _) | .nilPtr t => some t
  | .extInfo _ _ => some (.ext .ReturnIndexedPlayingTrackInfo)
  | .dispState _ _ => some (.disp .RetiPodStateInfo)
  | .dispTrack _ _ => some (.disp .RetIndexedPlayingTrackInfo)
  | .tokens _ => some (.gen .SetFIDTokenValues)
  | .acks _ => some (.gen .RetFIDTokenValueACKs)
  | _ => none

/-! ### The values of the other modules as Go values -/

/-- Extended-remote track infos (extremote.go:138-152). -/
def goExt : ExtInfo → Held
  | .caps a b c => .struct [.u32, .u32, .u16] (a, b, c, ())
  | .longText a b c => .struct [.u8, .u16, .u8] (a, b, c, ())
  | .emptyVal | .emptyPtr => .struct [] ()
  | .bytes b => .slice b

/-- Display-remote state infos (dispremote.go:118-188). -/
def goState : DispState → Held
  | .trackPositionMs v | .trackIndex v | .equalizer v => .struct [.u32] (v, ())
  | .chapterIndex a b c => .struct [.u32, .u16, .u16] (a, b, c, ())
  | .volume a b | .power a b => .struct [.u8, .u8] (a, b, ())
  | .playStatus v | .shuffle v | .repeat v | .backlight v | .holdSwitch v | .soundCheck v | .audiobookSpeed v =>
    .struct [.u8] (v, ())
  | .dateTime a b c d e => .struct [.u16, .u8, .u8, .u8, .u8] (a, b, c, d, e, ())
  | .trackPositionSec v => .struct [.u16] (v, ())
  | .volume2 a b c => .struct [.u8, .u8, .u8] (a, b, c, ())

/-- Display-remote track infos (dispremote.go:284-315). -/
def goTrack : DispTrack → Held
  | .caps a b c => .struct [.u32, .u32, .u16] (a, b, c, ())
  | .chapterTimeName a b => .struct [.u32, .bytes] (a, b, ())
  | .artist b | .album b | .genre b | .track b | .composer b => .struct [.bytes] (b, ())
  | .lyrics a b c => .struct [.u8, .u16, .bytes] (a, b, c, ())
  | .artworkCount v => .struct [.u8] (v, ())

/-- Tokens (general.go:439-585); `FIDIdentifyToken` alone has a `MarshalBinary`. The interface field of `FIDAccInfoToken` is
shown as a slice: neither has a fixed size. -/
def goToken : FIDToken → Held
  | .nil => .nil
  | .identify l o d => .marshaler (.ok (marshalIdentify l o d)) [.bytes, .u32, .u32] (l, o, d, ())
  | .accCaps m => .struct [.u64] (m, ())
  | .accInfo ty v => .struct [.u8, .bytes] (ty, v.getD [], ())
  | .ipodPref a b c => .struct [.u8, .u8, .u8] (a, b, c, ())
  | .eaProtocol i s => .struct [.u8, .bytes] (i, s, ())
  | .bundleSeed s => .struct [.arr 11] (s, ())
  | .screenInfo a b c d e f g h => .struct [.u16, .u16, .u16, .u16, .u16, .u16, .u8, .u8] (a, b, c, d, e, f, g, h, ())
  | .eaMetadata a b => .struct [.u8, .u8] (a, b, ())
  | .micCaps m => .struct [.u32] (m, ())
  | .raw b => .slice b

/-- Acknowledgements: bytes or nothing. -/
def goAck : Option Bytes → Held
  | none => .nil
  | some b => .slice b

/-- A payload of the other modules. -/
def asGo : Ipod.Payload → Any.Payload
  | .ptr (.ext .ReturnIndexedPlayingTrackInfo) v => .extInfo v.1 (goExt v.2.1)
  | .ptr (.disp .RetiPodStateInfo) v => .dispState v.1 (goState v.2.1)
  | .ptr (.disp .RetIndexedPlayingTrackInfo) v => .dispTrack v.1 (goTrack v.2.1)
  | .ptr (.gen .SetFIDTokenValues) v => .tokens (v.1.map fun x => (x.id, goToken x.token))
  | .ptr (.gen .RetFIDTokenValueACKs) v => .acks (v.1.map fun x => (x.id, goAck x.ack))
  | p => .of p

end Spec.Any
