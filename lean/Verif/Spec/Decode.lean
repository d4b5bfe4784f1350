import Verif.Spec.Messages

/-!
# Specification: what the bytes of a received message mean

`Decodes t body v`: the bytes `body` behind id and transaction are accepted for message type `t` and mean the value `v`.
Written as relations between bytes and values, for arbitrary bytes (also those no encoder produces).
-/

namespace Spec
open Go Ipod

/-- The bytes `b` read as a field give `v`: numbers big-endian, any non-zero byte is true. -/
def FieldReads : (f : FTy) → f.denote → Bytes → Prop
  | .u8, v, b => IsBE 1 v.toNat b
  | .u16, v, b => IsBE 2 v.toNat b
  | .u32, v, b => IsBE 4 v.toNat b
  | .u64, v, b => IsBE 8 v.toNat b
  | .i16, v, b => IsBESigned 2 v.toInt b
  | .i32, v, b => IsBESigned 4 v.toInt b
  | .bool, v, b => ∃ x, b = [x] ∧ (v = true ↔ x.toNat ≠ 0)
  | .arr n, v, b => b.length = n ∧ b = v.1
  | _, _, _ => False

/-- The bytes read as a struct give `v`, field after field. -/
inductive StructReads : (fs : List FTy) → SVal fs → Bytes → Prop
  | nil : StructReads [] () []
  | cons {f fs v vs b bs} : FieldReads f v b → StructReads fs vs bs → StructReads (f :: fs) (v, vs) (b ++ bs)

/-- `body` begins with the fields `fs` holding `v`; what follows is ignored. -/
def Begins (fs : List FTy) (v : SVal fs) (body : Bytes) : Prop := ∃ b rest, body = b ++ rest ∧ StructReads fs v b

/-- A number of `w` bytes is read off `r`, leaving `r'`; if there are fewer bytes it counts as 0 and nothing is left. -/
def NumOrZero (w : Nat) (r : Bytes) (v : Nat) (r' : Bytes) : Prop :=
  (∃ b, r = b ++ r' ∧ IsBE w v b) ∨ (r.length < w ∧ v = 0 ∧ r' = [])

/-- `n` bytes are read off `r`; if there are fewer they count as zeros and nothing is left. -/
def BytesOrZero (n : Nat) (r l r' : Bytes) : Prop :=
  (r = l ++ r' ∧ l.length = n) ∨ (r.length < n ∧ l = List.replicate n 0 ∧ r' = [])

/-- `x` is the first `n` bytes of `r`, filled up with zeros. -/
def Padded (n : Nat) (r x : Bytes) : Prop :=
  x.length = n ∧ ((∃ rest, r = x ++ rest) ∨ ∃ z, x = r ++ List.replicate z 0)

/-- `x` is `r` up to and including the first zero byte, all of `r` if there is none. -/
def UpToZero (r x : Bytes) : Prop :=
  (∃ s rest, r = s ++ 0 :: rest ∧ 0 ∉ s ∧ x = s ++ [0]) ∨ (0 ∉ r ∧ x = r)

/-- Value of an accessory info token of kind `k`: text (name, maker, model, serial), versions of three bytes, a 16-bit
or a 32-bit number. -/
def AccInfoReads (k : UInt8) (r x : Bytes) : Prop :=
  (k ∈ [(0x01 : UInt8), 0x06, 0x07, 0x08] ∧ UpToZero r x) ∨
  (k ∈ [(0x04 : UInt8), 0x05] ∧ Padded 3 r x) ∨
  (k = 0x09 ∧ Padded 2 r x) ∨
  (k ∈ [(0x0b : UInt8), 0x0c] ∧ Padded 4 r x)

/-- The body of a token with the given id means this token. -/
def TokenReads (id : TokenID) (body : Bytes) : FIDToken → Prop
  | .nil => False
  | .identify l o d => id = ⟨0x00, 0x00⟩ ∧ ∃ n r r1 r2 r3, body = n :: r ∧
      BytesOrZero n.toNat r l r1 ∧ NumOrZero 4 r1 o.toNat r2 ∧ NumOrZero 4 r2 d.toNat r3
  | .accCaps m => id = ⟨0x00, 0x01⟩ ∧ ∃ r, NumOrZero 8 body m.toNat r
  | .accInfo k x => id = ⟨0x00, 0x02⟩ ∧ ∃ r y, body = k :: r ∧ x = some y ∧ AccInfoReads k r y
  | .ipodPref a b c => id = ⟨0x00, 0x03⟩ ∧ ∃ rest, body = a :: b :: c :: rest
  | .eaProtocol i s => id = ⟨0x00, 0x04⟩ ∧ body = i :: s
  | .bundleSeed s => id = ⟨0x00, 0x05⟩ ∧ ∃ rest, body = s.1 ++ rest
  | .screenInfo a b c d e f g h => id = ⟨0x00, 0x07⟩ ∧
      Begins [.u16, .u16, .u16, .u16, .u16, .u16, .u8, .u8] (a, b, c, d, e, f, g, h, ()) body
  | .eaMetadata a b => id = ⟨0x00, 0x08⟩ ∧ ∃ rest, body = a :: b :: rest
  | .micCaps m => id.fidType = 0x01 ∧ ∃ b rest, body = b ++ rest ∧ IsBE 4 m.toNat b
  | .raw b => ¬ knownTokenID id ∧ b = body

/-- A token: two bytes of id, then its body. -/
def TokenValueReads (b : Bytes) (v : FIDTokenValue) : Prop :=
  ∃ body, b = v.id.fidType :: v.id.fidSubtype :: body ∧ TokenReads v.id body v.token

/-- A token acknowledgement: two bytes of id, the rest is its body. -/
def AckReads (b : Bytes) (v : FIDTokenValueACK) : Prop :=
  ∃ body, b = v.id.fidType :: v.id.fidSubtype :: body ∧ v.ack = some body

/-- `n` elements, each with a length byte in front (the last one may be cut short). -/
inductive ListReads {α : Type} (R : Bytes → α → Prop) : Nat → Bytes → List α → Prop
  | nil {r} : ListReads R 0 r []
  | cons {n len r v vs} : R (r.take (UInt8.toNat len)) v → ListReads R n (r.drop len.toNat) vs →
      ListReads R (n + 1) (len :: r) (v :: vs)

/-- A count byte and as many elements. -/
def CountedReads {α : Type} (R : Bytes → α → Prop) (b : Bytes) (l : List α) : Prop :=
  ∃ n r, b = n :: r ∧ ListReads R n.toNat r l

/-- Authentication info: version; from major version 2 on also section numbers and the certificate section. -/
def AuthInfoReads : Bytes → UInt8 × UInt8 × UInt8 × UInt8 × Bytes × Unit → Prop
  | b, (major, minor, cur, max, data, _) =>
    (2 ≤ major.toNat ∧ b = [major, minor, cur, max] ++ data) ∨
    (major.toNat < 2 ∧ cur = 0 ∧ max = 0 ∧ data = [] ∧ ∃ rest, b = [major, minor] ++ rest)

/-- Extended-remote track info. -/
def ExtInfoReads (ty : UInt8) (r : Bytes) : ExtInfo → Prop
  | .caps a b c => ty = 0x00 ∧ Begins [.u32, .u32, .u16] (a, b, c, ()) r
  | .longText a b c => (ty = 0x03 ∨ ty = 0x04) ∧ Begins [.u8, .u16, .u8] (a, b, c, ()) r
  | .emptyPtr => ty ≠ 0x00 ∧ ty ≠ 0x03 ∧ ty ≠ 0x04
  | _ => False

/-- Artwork formats: records of seven bytes, nothing left over. -/
inductive ArtworksRead : Bytes → List ArtworkFormat → Prop
  | nil : ArtworksRead [] []
  | cons {b rest a p w h fs} : StructReads [.u16, .u8, .u16, .u16] (a, p, w, h, ()) b → ArtworksRead rest fs →
      ArtworksRead (b ++ rest) (⟨a, p, w, h⟩ :: fs)

/-- Display-remote state info. -/
def DispStateReads (ty : UInt8) (r : Bytes) : DispState → Prop
  | .trackPositionMs v => ty = 0x00 ∧ Begins [.u32] (v, ()) r
  | .trackIndex v => ty = 0x01 ∧ Begins [.u32] (v, ()) r
  | .chapterIndex a b c => ty = 0x02 ∧ Begins [.u32, .u16, .u16] (a, b, c, ()) r
  | .playStatus v => ty = 0x03 ∧ Begins [.u8] (v, ()) r
  | .volume a b => ty = 0x04 ∧ Begins [.u8, .u8] (a, b, ()) r
  | .power a b => ty = 0x05 ∧ Begins [.u8, .u8] (a, b, ()) r
  | .equalizer v => ty = 0x06 ∧ Begins [.u32] (v, ()) r
  | .shuffle v => ty = 0x07 ∧ Begins [.u8] (v, ()) r
  | .repeat v => ty = 0x08 ∧ Begins [.u8] (v, ()) r
  | .dateTime a b c d e => ty = 0x09 ∧ Begins [.u16, .u8, .u8, .u8, .u8] (a, b, c, d, e, ()) r
  | .backlight v => ty = 0x0B ∧ Begins [.u8] (v, ()) r
  | .holdSwitch v => ty = 0x0C ∧ Begins [.u8] (v, ()) r
  | .soundCheck v => ty = 0x0D ∧ Begins [.u8] (v, ()) r
  | .audiobookSpeed v => ty = 0x0E ∧ Begins [.u8] (v, ()) r
  | .trackPositionSec v => ty = 0x0F ∧ Begins [.u16] (v, ()) r
  | .volume2 a b c => ty = 0x10 ∧ Begins [.u8, .u8, .u8] (a, b, c, ()) r

/-- Display-remote track info: only the two kinds without text can be received. -/
def DispTrackReads (ty : UInt8) (r : Bytes) : DispTrack → Prop
  | .caps a b c => ty = 0x00 ∧ Begins [.u32, .u32, .u16] (a, b, c, ()) r
  | .artworkCount v => ty = 0x08 ∧ Begins [.u8] (v, ()) r
  | _ => False

/-- Sample rates: as many complete 32-bit numbers as there are. -/
inductive RatesRead : Bytes → List UInt32 → Prop
  | nil {r} : r.length < 4 → RatesRead r []
  | cons {b r v vs} : IsBE 4 (UInt32.toNat v) b → RatesRead r vs → RatesRead (b ++ r) (v :: vs)

/-- A button mask: little-endian, at least one byte, bytes behind the fourth are ignored. -/
def ButtonsRead (b : Bytes) (v : UInt32) : Prop := b ≠ [] ∧ v.toNat = leVal (b.take 4)

/-- The type byte of the display-remote infos; missing, it counts as 0. -/
def TypeByte (b : Bytes) (ty : UInt8) (r : Bytes) : Prop := b = ty :: r ∨ (b = [] ∧ ty = 0 ∧ r = [])

/-- The bytes behind id and transaction mean the value `v` of message type `t`. -/
def Decodes : (t : TypeId) → Bytes → t.Val → Prop
  | .gen .ReturniPodName, b, v => v.1 = b
  | .gen .ReturniPodSerialNum, b, v => v.1 = b
  | .gen .ReturniPodModelNum, b, v => NumOrZero 4 b v.1.toNat v.2.1
  | .gen .RetDevAuthenticationInfo, b, v => AuthInfoReads b v
  | .gen .RetDevAuthenticationSignature, b, v => v.1 = b
  | .gen .SetFIDTokenValues, b, v => CountedReads TokenValueReads b v.1
  | .gen .RetFIDTokenValueACKs, b, v => CountedReads AckReads b v.1
  | .gen .RequestApplicationLaunch, b, v => b = [v.1, v.2.1, v.2.2.1] ++ v.2.2.2.1
  | .ext .ReturnIndexedPlayingTrackInfo, b, v => ∃ r, b = v.1 :: r ∧ ExtInfoReads v.1 r v.2.1
  | .ext .RetArtworkFormats, b, v => ArtworksRead b v.1
  | .ext .ReturnIndexedPlayingTrackTitle, b, v => v.1 = b
  | .ext .ReturnIndexedPlayingTrackArtistName, b, v => v.1 = b
  | .ext .ReturnIndexedPlayingTrackAlbumName, b, v => v.1 = b
  | .disp .RetiPodStateInfo, b, v => ∃ r, TypeByte b v.1 r ∧ DispStateReads v.1 r v.2.1
  | .disp .RetIndexedPlayingTrackInfo, b, v => ∃ r, TypeByte b v.1 r ∧ DispTrackReads v.1 r v.2.1
  | .aud .RetAccSampleRateCaps, b, v => RatesRead b v.1
  | .sim .ContextButtonStatus, b, v => ButtonsRead b v.1
  | .sim .VideoButtonStatus, b, v => ButtonsRead b v.1
  | .sim .AudioButtonStatus, b, v => ButtonsRead b v.1
  | t, b, v => Begins t.schema v b

end Spec
