import Verif.Spec.Layout
import Verif.Model.Serde

/-!
# Specification: the bytes of a message to be sent

`WireForm t v b`: the wire form of the value `v` of message type `t` are the bytes `b` (behind id and transaction). A value
without wire form cannot be sent. `SentForm` is the same with the shortcomings of the code: counts and lengths are
taken modulo 256, and display-remote infos it cannot write are left out.
-/

namespace Spec
open Go Ipod

/-- The bytes of a token behind its id; three kinds have none. -/
inductive TokenForm (Len : Nat → UInt8 → Prop) : FIDToken → Bytes → Prop
  | identify {n l o d bo bd} : Len l.length n → IsBE 4 (UInt32.toNat o) bo → IsBE 4 (UInt32.toNat d) bd →
      TokenForm Len (.identify l o d) (n :: (l ++ bo ++ bd))
  | accCaps {m b} : IsBE 8 (UInt64.toNat m) b → TokenForm Len (.accCaps m) b
  | ipodPref {x y z} : TokenForm Len (.ipodPref x y z) [x, y, z]
  | bundleSeed {s} : TokenForm Len (.bundleSeed s) s.1
  | screenInfo {a b c d e f g h bs} :
      StructBytes [.u16, .u16, .u16, .u16, .u16, .u16, .u8, .u8] (a, b, c, d, e, f, g, h, ()) bs →
      TokenForm Len (.screenInfo a b c d e f g h) bs
  | eaMetadata {x y} : TokenForm Len (.eaMetadata x y) [x, y]
  | micCaps {m b} : IsBE 4 (UInt32.toNat m) b → TokenForm Len (.micCaps m) b
  | raw {b} : TokenForm Len (.raw b) b

/-- A token: its id of two bytes, then its bytes. -/
def TokenValueForm (Len : Nat → UInt8 → Prop) (v : FIDTokenValue) (b : Bytes) : Prop :=
  ∃ body, TokenForm Len v.token body ∧ b = v.id.fidType :: v.id.fidSubtype :: body

/-- An acknowledgement of a token: its id of two bytes, then the bytes, which must be there. -/
def AckForm (v : FIDTokenValueACK) (b : Bytes) : Prop :=
  ∃ body, v.ack = some body ∧ b = v.id.fidType :: v.id.fidSubtype :: body

/-- The elements in order, each behind its length. -/
inductive ElementsForm {α : Type} (Len : Nat → UInt8 → Prop) (R : α → Bytes → Prop) : List α → Bytes → Prop
  | nil : ElementsForm Len R [] []
  | cons {v vs n b rest} : R v b → Len b.length n → ElementsForm Len R vs rest →
      ElementsForm Len R (v :: vs) (n :: (b ++ rest))

/-- The number of elements, then the elements. -/
def CountedForm {α : Type} (Len : Nat → UInt8 → Prop) (R : α → Bytes → Prop) (l : List α) (b : Bytes) : Prop :=
  ∃ n r, b = n :: r ∧ Len l.length n ∧ ElementsForm Len R l r

/-- Extended-remote track info; it must be there. -/
inductive ExtInfoForm : ExtInfo → Bytes → Prop
  | caps {a b c bs} : StructBytes [.u32, .u32, .u16] (a, b, c, ()) bs → ExtInfoForm (.caps a b c) bs
  | longText {a b c bs} : StructBytes [.u8, .u16, .u8] (a, b, c, ()) bs → ExtInfoForm (.longText a b c) bs
  | emptyVal : ExtInfoForm .emptyVal []
  | emptyPtr : ExtInfoForm .emptyPtr []
  | bytes {b} : ExtInfoForm (.bytes b) b

/-- Artwork formats, one after the other. -/
inductive ArtworksForm : List ArtworkFormat → Bytes → Prop
  | nil : ArtworksForm [] []
  | cons {f fs b rest} :
      StructBytes [.u16, .u8, .u16, .u16] (f.formatID, f.pixelFormat, f.imageWidth, f.imageHeight, ()) b →
      ArtworksForm fs rest → ArtworksForm (f :: fs) (b ++ rest)

/-- Display-remote state info. -/
def DispStateForm : DispState → Bytes → Prop
  | .trackPositionMs v, b => IsBE 4 v.toNat b
  | .trackIndex v, b => IsBE 4 v.toNat b
  | .chapterIndex i n k, b => StructBytes [.u32, .u16, .u16] (i, n, k, ()) b
  | .playStatus v, b => b = [v]
  | .volume x y, b => b = [x, y]
  | .power x y, b => b = [x, y]
  | .equalizer v, b => IsBE 4 v.toNat b
  | .shuffle v, b => b = [v]
  | .repeat v, b => b = [v]
  | .dateTime y m d h n, b => StructBytes [.u16, .u8, .u8, .u8, .u8] (y, m, d, h, n, ()) b
  | .backlight v, b => b = [v]
  | .holdSwitch v, b => b = [v]
  | .soundCheck v, b => b = [v]
  | .audiobookSpeed v, b => b = [v]
  | .trackPositionSec v, b => IsBE 2 v.toNat b
  | .volume2 x y z, b => b = [x, y, z]

/-- Display-remote track info, texts as they are. -/
def DispTrackForm : DispTrack → Bytes → Prop
  | .caps x y z, b => StructBytes [.u32, .u32, .u16] (x, y, z, ()) b
  | .chapterTimeName t s, b => ∃ h, IsBE 4 t.toNat h ∧ b = h ++ s
  | .artist s, b => b = s
  | .album s, b => b = s
  | .genre s, b => b = s
  | .track s, b => b = s
  | .composer s, b => b = s
  | .lyrics x i s, b => ∃ h, IsBE 2 i.toNat h ∧ b = x :: (h ++ s)
  | .artworkCount v, b => b = [v]

/-- The track infos that carry a text. -/
def carriesText : DispTrack → Prop
  | .chapterTimeName _ _ | .artist _ | .album _ | .genre _ | .track _ | .composer _ | .lyrics _ _ _ => True
  | _ => False

/-- Sample rates, each in four bytes. -/
inductive RatesForm : List UInt32 → Bytes → Prop
  | nil : RatesForm [] []
  | cons {v vs b rest} : IsBE 4 (UInt32.toNat v) b → RatesForm vs rest → RatesForm (v :: vs) (b ++ rest)

/-- A button mask: little-endian in the fewest bytes, at least one. -/
def ButtonsForm (v : UInt32) (b : Bytes) : Prop :=
  b ≠ [] ∧ leVal b = v.toNat ∧ ∀ b' : Bytes, b' ≠ [] → leVal b' = v.toNat → b.length ≤ b'.length

/-- The bytes of a value, for given forms of lengths and display-remote track infos. -/
def Form (Len : Nat → UInt8 → Prop) (Track : DispTrack → Bytes → Prop) :
    (t : TypeId) → t.Val → Bytes → Prop
  | .gen .ReturniPodName, v, b => b = v.1
  | .gen .ReturniPodSerialNum, v, b => b = v.1
  | .gen .ReturniPodModelNum, v, b => ∃ h, IsBE 4 v.1.toNat h ∧ b = h ++ v.2.1
  | .gen .SetFIDTokenValues, v, b => CountedForm Len (TokenValueForm Len) v.1 b
  | .gen .RetFIDTokenValueACKs, v, b => CountedForm Len AckForm v.1 b
  | .ext .ReturnIndexedPlayingTrackInfo, v, b => ∃ r, ExtInfoForm v.2.1 r ∧ b = v.1 :: r
  | .ext .RetArtworkFormats, v, b => ArtworksForm v.1 b
  | .ext .ReturnIndexedPlayingTrackTitle, v, b => b = v.1
  | .ext .ReturnIndexedPlayingTrackArtistName, v, b => b = v.1
  | .ext .ReturnIndexedPlayingTrackAlbumName, v, b => b = v.1
  | .disp .RetiPodStateInfo, v, b => ∃ r, DispStateForm v.2.1 r ∧ b = v.1 :: r
  | .disp .RetIndexedPlayingTrackInfo, v, b => ∃ r, Track v.2.1 r ∧ b = v.1 :: r
  | .aud .RetAccSampleRateCaps, v, b => RatesForm v.1 b
  | .sim .ContextButtonStatus, v, b => ButtonsForm v.1 b
  | .sim .VideoButtonStatus, v, b => ButtonsForm v.1 b
  | .sim .AudioButtonStatus, v, b => ButtonsForm v.1 b
  | t, v, b => StructBytes t.schema v b

/-- The wire form of a message: every count and length is what it says, every info is there. -/
def WireForm : (t : TypeId) → t.Val → Bytes → Prop :=
  Form (fun k n => n.toNat = k) DispTrackForm

/-- What the code sends: counts and lengths modulo 256; of a display-remote track info that carries a text,
nothing. -/
def SentForm : (t : TypeId) → t.Val → Bytes → Prop :=
  Form (fun k n => n.toNat = k % 256) (fun s b => ¬ carriesText s ∧ DispTrackForm s b ∨ carriesText s ∧ b = [])

/-- Lengths of the parts of a token value fit a byte. -/
def TokenFits (v : FIDTokenValue) : Prop :=
  match v.token with
  | .identify l _ _ => l.length + 11 ≤ 255
  | .raw b => b.length + 2 ≤ 255
  | _ => True

/-- The values the code can send as they are: counts and lengths fit a byte, and a display-remote track info carries
no text (other than the empty one). -/
def Expressible : (t : TypeId) → t.Val → Prop
  | .gen .SetFIDTokenValues, v => v.1.length ≤ 255 ∧ ∀ x ∈ v.1, TokenFits x
  | .gen .RetFIDTokenValueACKs, v => v.1.length ≤ 255 ∧ ∀ x ∈ v.1, ∀ b, x.ack = some b → b.length + 2 ≤ 255
  | .disp .RetIndexedPlayingTrackInfo, v => ∀ b, DispTrackForm v.2.1 b → carriesText v.2.1 → b = []
  | _, _ => True

end Spec
