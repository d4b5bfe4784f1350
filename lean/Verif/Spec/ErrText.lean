import Verif.Spec.Decode
import Verif.Spec.Layout
import Verif.Spec.Registry
import Verif.Spec.Text
import Verif.Model.ErrText

/-! What the errors of the command codec say, by their cause: relations between the bytes received (or the message to be sent)
and the text of the error. -/

namespace Spec
open Go Ipod

/-- `n` bytes are needed and `r` has fewer: `EOF` if there are none at all, else `unexpected EOF`. -/
inductive TooFew (n : Nat) (r : Bytes) : Bytes → Prop
  | none : 0 < n → r = [] → TooFew n r (ascii "EOF")
  | some : r ≠ [] → r.length < n → TooFew n r (ascii "unexpected EOF")

/-- How many bytes the display-remote state info of a kind needs. -/
def stateInfoBytes (ty : UInt8) : Option Nat :=
  match ty.toNat with
  | 0 | 1 | 6 => some 4
  | 2 => some 8
  | 3 | 7 | 8 | 11 | 12 | 13 | 14 => some 1
  | 4 | 5 | 15 => some 2
  | 9 => some 6
  | 16 => some 3
  | _ => none

/-- The kinds of display-remote track info that hold a text, with the names of their types. -/
def trackTextName (ty : UInt8) : Option String :=
  match ty.toNat with
  | 1 => some "ChapterTimeName"
  | 2 => some "Artist"
  | 3 => some "Album"
  | 4 => some "Genre"
  | 5 => some "Track"
  | 6 => some "Composer"
  | 7 => some "Lyrics"
  | _ => none

/-- How many bytes the body of a token needs (`0`: any body will do, or the body decides otherwise). -/
def tokenBytes (id : TokenID) : Nat :=
  if id.fidType = 0x01 then 4
  else if id.fidType = 0x00 then
    match id.fidSubtype.toNat with
    | 0 => 1
    | 3 => 3
    | 5 => 11
    | 7 => 14
    | 8 => 2
    | _ => 0
  else 0

/-- The kinds of accessory info. -/
def accInfoKinds : List UInt8 := [0x01, 0x04, 0x05, 0x06, 0x07, 0x08, 0x09, 0x0b, 0x0c]

/-- Why a token is refused. -/
inductive TokenFails (b : Bytes) : Bytes → Prop
  | id {x} : TooFew 2 b x → TokenFails b x
  | body {id body x} : b = id.fidType :: id.fidSubtype :: body → TooFew (tokenBytes id) body x → TokenFails b x
  | kind {body} : b = 0x00 :: 0x02 :: body → (∀ k r, body = k :: r → k ∉ accInfoKinds) →
      TokenFails b (ascii "unknown AccInfoToken type")

/-- Why a list of elements is refused: an element whose length byte is missing, or the first refused element. -/
inductive ListFails {α : Type} (R : Bytes → α → Prop) (F : Bytes → Bytes → Prop) : Nat → Bytes → Bytes → Prop
  | missing {n} : ListFails R F (n + 1) [] (ascii "EOF")
  | here {n len r x} : F (r.take (UInt8.toNat len)) x → ListFails R F (n + 1) (len :: r) x
  | later {n len r x v} : R (r.take (UInt8.toNat len)) v → ListFails R F n (r.drop len.toNat) x →
      ListFails R F (n + 1) (len :: r) x

/-- The same with a count byte in front. -/
inductive CountedFails {α : Type} (R : Bytes → α → Prop) (F : Bytes → Bytes → Prop) : Bytes → Bytes → Prop
  | missing : CountedFails R F [] (ascii "EOF")
  | list {n r x} : ListFails R F (UInt8.toNat n) r x → CountedFails R F (n :: r) x

/-- Why the body of a message of a type with its own codec is refused. -/
def CodecFails (lib : BinTexts) : TypeId → Bytes → Bytes → Prop
  | .gen .RetDevAuthenticationInfo, b, x =>
      x = ascii "short packet" ∧ (b.length < 2 ∨ b.length < 4 ∧ ∃ major r, b = major :: r ∧ 2 ≤ major.toNat)
  | .gen .SetFIDTokenValues, b, x => CountedFails TokenValueReads TokenFails b x
  | .gen .RetFIDTokenValueACKs, b, x => CountedFails AckReads (TooFew 2) b x
  | .ext .ReturnIndexedPlayingTrackInfo, b, x => TooFew 1 b x ∨ (∃ r, b = 0x00 :: r ∧ TooFew 10 r x) ∨
      ∃ ty r, b = ty :: r ∧ (ty = 0x03 ∨ ty = 0x04) ∧ TooFew 4 r x
  | .ext .RetArtworkFormats, b, x => b.length % 7 ≠ 0 ∧ x = ascii "unexpected EOF"
  | .disp .RetiPodStateInfo, b, x => ∃ ty r, TypeByte b ty r ∧
      ((stateInfoBytes ty = none ∧ x = ascii "unknown info type") ∨ ∃ n, stateInfoBytes ty = some n ∧ TooFew n r x)
  | .disp .RetIndexedPlayingTrackInfo, b, x => ∃ ty r, TypeByte b ty r ∧
      ((8 < ty.toNat ∧ x = ascii "unknown info type") ∨
       (∃ s, trackTextName ty = some s ∧ x = lib.read (ascii "*dispremote.TrackInfo" ++ ascii s)) ∨
       (ty = 0x00 ∧ TooFew 10 r x) ∨ (ty = 0x08 ∧ TooFew 1 r x))
  | .sim .ContextButtonStatus, b, x => b = [] ∧ x = ascii "invalid data"
  | .sim .VideoButtonStatus, b, x => b = [] ∧ x = ascii "invalid data"
  | .sim .AudioButtonStatus, b, x => b = [] ∧ x = ascii "invalid data"
  | _, _, _ => False

/-- The types that decode themselves. -/
def ownDecoder : List TypeId :=
  [.gen .ReturniPodName, .gen .ReturniPodSerialNum, .gen .ReturniPodModelNum, .gen .RetDevAuthenticationInfo,
   .gen .RetDevAuthenticationSignature, .gen .SetFIDTokenValues, .gen .RetFIDTokenValueACKs, .gen .RequestApplicationLaunch,
   .ext .ReturnIndexedPlayingTrackInfo, .ext .RetArtworkFormats, .ext .ReturnIndexedPlayingTrackTitle,
   .ext .ReturnIndexedPlayingTrackArtistName, .ext .ReturnIndexedPlayingTrackAlbumName, .disp .RetiPodStateInfo,
   .disp .RetIndexedPlayingTrackInfo, .aud .RetAccSampleRateCaps, .sim .ContextButtonStatus, .sim .VideoButtonStatus,
   .sim .AudioButtonStatus]

/-- The text about the body of a message of type `t`. -/
inductive BodyFails (lib : BinTexts) (t : TypeId) (b : Bytes) : Bytes → Prop
  | own {x} : t ∈ ownDecoder → CodecFails lib t b x →
      BodyFails lib t b (ascii "ipod.Command unmarshal: BinaryUnmarshaler: " ++ x)
  | short {n x} : t ∉ ownDecoder → FixedSize t.schema n → TooFew n b x →
      BodyFails lib t b (ascii "ipod.Command unmarshal: binary.Read: " ++ x)
  | unsized : t ∉ ownDecoder → (∀ n, ¬ FixedSize t.schema n) →
      BodyFails lib t b (ascii "ipod.Command unmarshal: binary.Read: " ++ lib.read (ascii "*" ++ ascii t.typeName))

/-- The packet ends within the id of the command. -/
inductive IdFails : Bytes → Bytes → Prop
  | short {p} : p.length < 2 → IdFails p (ascii "EOF")
  | wide {b} : IdFails [0x04, b] (ascii "unexpected EOF")

/-- The mode in which a command is read: three commands of the general lingo set it. -/
def modeFor (mode : Bool) (lingo : UInt8) (cmd : UInt16) : Bool :=
  if lingo = 0x00 ∧ (cmd = 0x00 ∨ cmd = 0x13) then false
  else if lingo = 0x00 ∧ cmd = 0x38 then true
  else mode

/-- The error a packet gives; `regs` are the registered messages. -/
inductive PacketFails (lib : BinTexts) (regs : List (UInt32 × TypeId)) (mode : Bool) : Bytes → Bytes → Prop
  | id {p x} : IdFails p x → PacketFails lib regs mode p (ascii "ipod.Command unmarshal: " ++ x)
  | unknown {l c r s} : (l = 0x04 ∨ c.toNat < 256) → IdText "" "," "" l c s →
      (∀ t b, ¬ Found TypeId.size r.length (modeFor mode l c) (candidates regs (idOf l c)) t b) →
      PacketFails lib regs mode (idBytes l c ++ r) (ascii "ipod.Command unmarshal: unknown cmd " ++ s)
  | body {l c r t x} : (l = 0x04 ∨ c.toNat < 256) →
      Found TypeId.size r.length (modeFor mode l c) (candidates regs (idOf l c)) t false → BodyFails lib t r x →
      PacketFails lib regs mode (idBytes l c ++ r) x
  | transaction {l c r t x} : (l = 0x04 ∨ c.toNat < 256) →
      Found TypeId.size r.length (modeFor mode l c) (candidates regs (idOf l c)) t true → TooFew 2 r x →
      PacketFails lib regs mode (idBytes l c ++ r) x
  | bodyBehind {l c a b r t x} : (l = 0x04 ∨ c.toNat < 256) →
      Found TypeId.size (r.length + 2) (modeFor mode l c) (candidates regs (idOf l c)) t true → BodyFails lib t r x →
      PacketFails lib regs mode (idBytes l c ++ a :: b :: r) x

/-- The types that encode themselves. -/
def ownEncoder : List TypeId :=
  [.gen .ReturniPodName, .gen .ReturniPodSerialNum, .gen .ReturniPodModelNum, .gen .SetFIDTokenValues,
   .gen .RetFIDTokenValueACKs, .ext .ReturnIndexedPlayingTrackInfo, .ext .RetArtworkFormats,
   .ext .ReturnIndexedPlayingTrackTitle, .ext .ReturnIndexedPlayingTrackArtistName, .ext .ReturnIndexedPlayingTrackAlbumName,
   .disp .RetiPodStateInfo, .disp .RetIndexedPlayingTrackInfo, .aud .RetAccSampleRateCaps, .sim .ContextButtonStatus,
   .sim .VideoButtonStatus, .sim .AudioButtonStatus]

/-- Tokens that cannot be written: none at all, accessory info and protocol tokens. -/
inductive Unwritable : FIDToken → Prop
  | nil : Unwritable .nil
  | accInfo {k x} : Unwritable (.accInfo k x)
  | eaProtocol {i s} : Unwritable (.eaProtocol i s)

/-- The error of sending a message. -/
inductive SendFails (lib : BinTexts) : Payload → Bytes → Prop
  | nil : SendFails lib .nil (ascii "ipod.Command marshal: nil payload")
  | tokens {v} : (∃ tv ∈ v.1, Unwritable (FIDTokenValue.token tv)) →
      SendFails lib (.ptr (.gen .SetFIDTokenValues) v) (ascii "ipod.Command marshal: BinaryMarshaler: unknown token")
  | acks {v} : (∃ a ∈ v.1, FIDTokenValueACK.ack a = none) →
      SendFails lib (.ptr (.gen .RetFIDTokenValueACKs) v) (ascii "ipod.Command marshal: BinaryMarshaler: unknown ack")
  | unsized {t v} : t ∉ ownEncoder → (∀ n, ¬ FixedSize t.schema n) →
      SendFails lib (.ptr t v)
        (ascii "ipod.Command marshal: binary.Write: " ++ lib.write (ascii "*" ++ ascii t.typeName))

end Spec
