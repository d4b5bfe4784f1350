import Verif.Model.Types
import Verif.Spec.Layout

/-!
# Specification: which values of variable-size messages are meant to survive the wire

Each predicate says, for one kind of message, which values the wire format can express.
-/

namespace Spec
open Go Ipod

/-- Token ids of the general-lingo token types. -/
def knownTokenID (id : TokenID) : Prop :=
  id.fidType = 0x01 ∨
  (id.fidType = 0x00 ∧ id.fidSubtype ∈ [(0x00 : UInt8), 0x01, 0x02, 0x03, 0x04, 0x05, 0x07, 0x08])

instance (id : TokenID) : Decidable (knownTokenID id) := by unfold knownTokenID; infer_instance

/-- A token whose kind agrees with its id and whose encoding (id included) fits 255 bytes. -/
def TokenOK (v : FIDTokenValue) : Prop :=
  match v.token with
  | .identify l _ _ => v.id = ⟨0x00, 0x00⟩ ∧ l.length ≤ 244
  | .accCaps _ => v.id = ⟨0x00, 0x01⟩
  | .ipodPref _ _ _ => v.id = ⟨0x00, 0x03⟩
  | .bundleSeed _ => v.id = ⟨0x00, 0x05⟩
  | .screenInfo _ _ _ _ _ _ _ _ => v.id = ⟨0x00, 0x07⟩
  | .eaMetadata _ _ => v.id = ⟨0x00, 0x08⟩
  | .micCaps _ => v.id.fidType = 0x01
  | .raw b => ¬ knownTokenID v.id ∧ b.length ≤ 253
  | .nil | .accInfo _ _ | .eaProtocol _ _ => False

/-- An acknowledgement with a body, at most 255 bytes with its id. -/
def AckOK (v : FIDTokenValueACK) : Prop := ∃ b, v.ack = some b ∧ b.length ≤ 253

/-- Extended-remote track info whose record kind agrees with the type byte. -/
def ExtInfoOK (ty : UInt8) : ExtInfo → Prop
  | .caps _ _ _ => ty = 0x00
  | .longText _ _ _ => ty = 0x03 ∨ ty = 0x04
  | .emptyPtr => ty ≠ 0x00 ∧ ty ≠ 0x03 ∧ ty ≠ 0x04
  | .emptyVal | .bytes _ => False

/-- Display-remote state info: the record kind of each info type (0x0A is not used). -/
def DispStateOK (ty : UInt8) : DispState → Prop
  | .trackPositionMs _ => ty = 0x00
  | .trackIndex _ => ty = 0x01
  | .chapterIndex _ _ _ => ty = 0x02
  | .playStatus _ => ty = 0x03
  | .volume _ _ => ty = 0x04
  | .power _ _ => ty = 0x05
  | .equalizer _ => ty = 0x06
  | .shuffle _ => ty = 0x07
  | .repeat _ => ty = 0x08
  | .dateTime _ _ _ _ _ => ty = 0x09
  | .backlight _ => ty = 0x0B
  | .holdSwitch _ => ty = 0x0C
  | .soundCheck _ => ty = 0x0D
  | .audiobookSpeed _ => ty = 0x0E
  | .trackPositionSec _ => ty = 0x0F
  | .volume2 _ _ _ => ty = 0x10

/-- Display-remote track info: the record kind of each info type. -/
def DispTrackOK (ty : UInt8) : DispTrack → Prop
  | .caps _ _ _ => ty = 0x00
  | .chapterTimeName _ _ => ty = 0x01
  | .artist _ => ty = 0x02
  | .album _ => ty = 0x03
  | .genre _ => ty = 0x04
  | .track _ => ty = 0x05
  | .composer _ => ty = 0x06
  | .lyrics _ _ _ => ty = 0x07
  | .artworkCount _ => ty = 0x08

/-- The track infos without text. -/
def DispTrackFixed : DispTrack → Prop
  | .caps _ _ _ => True
  | .artworkCount _ => True
  | _ => False

/-- Messages with their own codec in both directions, and their expressible values. For
`RetIndexedPlayingTrackInfo` all documented info types are listed (see `DispTrackFixed`). -/
inductive VarOK : (t : TypeId) → t.Val → Prop
  | name (b : Bytes) : VarOK (.gen .ReturniPodName) (b, ())
  | serial (b : Bytes) : VarOK (.gen .ReturniPodSerialNum) (b, ())
  | model (id : UInt32) (b : Bytes) : VarOK (.gen .ReturniPodModelNum) (id, b, ())
  | tokens (l : List FIDTokenValue) : l.length ≤ 255 → (∀ v ∈ l, TokenOK v) →
      VarOK (.gen .SetFIDTokenValues) (l, ())
  | acks (l : List FIDTokenValueACK) : l.length ≤ 255 → (∀ v ∈ l, AckOK v) →
      VarOK (.gen .RetFIDTokenValueACKs) (l, ())
  | extInfo (ty : UInt8) (i : ExtInfo) : ExtInfoOK ty i →
      VarOK (.ext .ReturnIndexedPlayingTrackInfo) (ty, i, ())
  | artworks (l : List ArtworkFormat) : VarOK (.ext .RetArtworkFormats) (l, ())
  | title (b : Bytes) : VarOK (.ext .ReturnIndexedPlayingTrackTitle) (b, ())
  | artist (b : Bytes) : VarOK (.ext .ReturnIndexedPlayingTrackArtistName) (b, ())
  | album (b : Bytes) : VarOK (.ext .ReturnIndexedPlayingTrackAlbumName) (b, ())
  | dispState (ty : UInt8) (i : DispState) : DispStateOK ty i → VarOK (.disp .RetiPodStateInfo) (ty, i, ())
  | dispTrack (ty : UInt8) (i : DispTrack) : DispTrackOK ty i →
      VarOK (.disp .RetIndexedPlayingTrackInfo) (ty, i, ())
  | rates (l : List UInt32) : VarOK (.aud .RetAccSampleRateCaps) (l, ())
  | ctxButtons (x : UInt32) : VarOK (.sim .ContextButtonStatus) (x, (), ())
  | videoButtons (x : UInt32) : VarOK (.sim .VideoButtonStatus) (x, (), ())
  | audioButtons (x : UInt32) : VarOK (.sim .AudioButtonStatus) (x, (), ())

/-- Display-remote track infos that carry text. -/
def IsTrackText : (t : TypeId) → t.Val → Prop
  | .disp .RetIndexedPlayingTrackInfo, v => ¬ DispTrackFixed v.2.1
  | _, _ => False

/-- Which bodies a FID token of the given type and subtype may have to be accepted by the decoder. -/
def TokenBodyOK (ty sub : UInt8) (body : Bytes) : Prop :=
  if ty = 0x00 then
    match sub.toNat with
    | 0x00 => body ≠ []
    | 0x02 => ∃ k r, body = k :: r ∧ k ∈ [(0x01 : UInt8), 0x04, 0x05, 0x06, 0x07, 0x08, 0x09, 0x0b, 0x0c]
    | 0x03 => 3 ≤ body.length
    | 0x04 => body ≠ []
    | 0x05 => 11 ≤ body.length
    | 0x07 => 14 ≤ body.length
    | 0x08 => 2 ≤ body.length
    | _ => True
  else if ty = 0x01 then 4 ≤ body.length
  else True

/-- Token bytes (type, subtype, body) that are decoded without error. -/
def TokenAccepted (tb : Bytes) : Prop := ∃ ty sub body, tb = ty :: sub :: body ∧ TokenBodyOK ty sub body

/-- Among the first `n` length-delimited tokens of `r`, after accepted tokens only, there is a token consisting of
nothing but the two-byte id of an external-accessory protocol token (00 04). -/
inductive BareEAToken : Nat → Bytes → Prop
  | here {n len r} : r.take (UInt8.toNat len) = [0x00, 0x04] → BareEAToken (n + 1) (len :: r)
  | later {n len r} : TokenAccepted (r.take (UInt8.toNat len)) → BareEAToken n (r.drop len.toNat) →
      BareEAToken (n + 1) (len :: r)

end Spec
