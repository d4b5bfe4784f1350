import Verif.Spec.Handlers

/-! Specification of the constant answers of the emulator, as bytes on the wire. -/

namespace Spec
open Go Ipod

/-- A packet: lingo and command, transaction (if any), body. -/
def packetOf (lingo : UInt8) (cmd : UInt16) (trx : Option UInt16) (body : Bytes) : Bytes :=
  idBytes lingo cmd ++ transactionBytes trx ++ body

/-- The packet `request` is answered by the packet `reply` alone, in every state and with the device unchanged. -/
def AnsweredBy {σ : Type} (D : Device σ) (clock : Clock) (c : Ctx σ) (mode : Bool) (request reply : Bytes) : Prop :=
  ∃ cmd, unmarshalCmd mode request = .ret (mode, cmd, none) ∧
    ∀ c' new, Handles D clock cmd c c' new → c'.dev = c.dev ∧ ∃ x, new = [x] ∧ marshalCmd mode x = (mode, .ok reply)

/-- A request (its body has `len` bytes, whatever they are) and its answer. -/
structure ConstantReply where
  lingo : UInt8
  request : UInt16
  len : Nat
  reply : UInt16
  body : Bytes

/-- The requests with a constant answer. -/
def constantReplies : List ConstantReply := [
  -- General: model number 0x00111349 "MC676", options
  ⟨0x00, 0x0D, 0, 0x0E, [0x00, 0x11, 0x13, 0x49, 0x4D, 0x43, 0x36, 0x37, 0x36, 0x00]⟩,
  ⟨0x00, 0x24, 0, 0x25, [0, 0, 0, 0, 0, 0, 0, 0]⟩,
  ⟨0x00, 0x37, 1, 0x02, [0x00, 0x37]⟩,
  -- Display Remote: EQ profile 0 of 1, no remote events, stopped at the beginning of track 0, no tracks, external power with
  -- full battery, no sound check; setters are acknowledged
  ⟨0x03, 0x01, 0, 0x02, [0, 0, 0, 0]⟩,
  ⟨0x03, 0x03, 5, 0x00, [0x00, 0x03]⟩,
  ⟨0x03, 0x04, 0, 0x05, [0, 0, 0, 1]⟩,
  ⟨0x03, 0x08, 4, 0x00, [0x00, 0x08]⟩,
  ⟨0x03, 0x0A, 0, 0x0B, [0, 0, 0, 0]⟩,
  ⟨0x03, 0x0E, 2, 0x00, [0x00, 0x0E]⟩,
  ⟨0x03, 0x0F, 0, 0x10, [0, 0, 0, 0, 0, 0, 0, 0, 0, 0, 0, 0, 0]⟩,
  ⟨0x03, 0x11, 4, 0x00, [0x00, 0x11]⟩,
  ⟨0x03, 0x14, 0, 0x15, [0, 0, 0, 0]⟩,
  ⟨0x03, 0x1A, 0, 0x1B, [0x01, 0xFF]⟩,
  ⟨0x03, 0x1C, 0, 0x1D, [0x00]⟩,
  ⟨0x03, 0x1E, 2, 0x00, [0x00, 0x1E]⟩,
  -- Extended Remote: chapter 0 of 1 at position 0, audiobook speed 0, no artwork formats, no artwork data
  ⟨0x04, 0x02, 0, 0x03, [0, 0, 0, 0, 0, 0, 0, 1]⟩,
  ⟨0x04, 0x04, 4, 0x01, [0x00, 0x00, 0x04]⟩,
  ⟨0x04, 0x05, 4, 0x06, [0, 0, 0, 0, 0, 0, 0, 0]⟩,
  ⟨0x04, 0x09, 0, 0x0A, [0x00]⟩,
  ⟨0x04, 0x0B, 1, 0x01, [0x00, 0x00, 0x0B]⟩,
  ⟨0x04, 0x0E, 0, 0x0F, []⟩,
  ⟨0x04, 0x10, 10, 0x01, [0x02, 0x00, 0x10]⟩,
  -- one record, without name; a track of 300000 ms at 20000 ms, paused; title, artist, album
  ⟨0x04, 0x16, 0, 0x01, [0x00, 0x00, 0x16]⟩,
  ⟨0x04, 0x17, 5, 0x01, [0x00, 0x00, 0x17]⟩,
  ⟨0x04, 0x18, 1, 0x19, [0, 0, 0, 1]⟩,
  ⟨0x04, 0x1A, 9, 0x1B, [0, 0, 0, 0, 0, 0, 0, 0, 0, 0, 0, 0, 0, 0, 0, 0, 0, 0, 0, 0]⟩,
  ⟨0x04, 0x1C, 0, 0x1D, [0x00, 0x04, 0x93, 0xE0, 0x00, 0x00, 0x4E, 0x20, 0x02]⟩,
  ⟨0x04, 0x1E, 0, 0x1F, [0, 0, 0, 0]⟩,
  ⟨0x04, 0x20, 4, 0x21, [0x74, 0x69, 0x74, 0x6C, 0x65, 0x00]⟩,
  ⟨0x04, 0x22, 4, 0x23, [0x61, 0x72, 0x74, 0x69, 0x73, 0x74, 0x00]⟩,
  ⟨0x04, 0x24, 4, 0x25, [0x61, 0x6C, 0x62, 0x75, 0x6D, 0x00]⟩,
  -- notifications, selection, control are acknowledged; no artwork times; no shuffle, no repeat
  ⟨0x04, 0x26, 4, 0x01, [0x00, 0x00, 0x26]⟩,
  ⟨0x04, 0x26, 1, 0x01, [0x00, 0x00, 0x26]⟩,
  ⟨0x04, 0x28, 4, 0x01, [0x00, 0x00, 0x28]⟩,
  ⟨0x04, 0x29, 1, 0x01, [0x00, 0x00, 0x29]⟩,
  ⟨0x04, 0x2A, 10, 0x2B, []⟩,
  ⟨0x04, 0x2C, 0, 0x2D, [0x00]⟩,
  ⟨0x04, 0x2E, 1, 0x01, [0x00, 0x00, 0x2E]⟩,
  ⟨0x04, 0x2F, 0, 0x30, [0x00]⟩,
  ⟨0x04, 0x31, 1, 0x01, [0x00, 0x00, 0x31]⟩,
  -- display images up to 640 x 960, format 1; one track
  ⟨0x04, 0x32, 0, 0x01, [0x00, 0x00, 0x32]⟩,
  ⟨0x04, 0x33, 0, 0x34, [0x02, 0x80, 0x03, 0xC0, 0x01]⟩,
  ⟨0x04, 0x35, 0, 0x36, [0, 0, 0, 1]⟩,
  ⟨0x04, 0x39, 0, 0x3A, [0x02, 0x80, 0x03, 0xC0, 0x01]⟩,
  ⟨0x04, 0x3B, 1, 0x01, [0x02, 0x00, 0x3B]⟩]

/-- Answers of Display Remote to the state infos: position 0, track 1, chapter 0, playing, full volume, full battery, flat
equalizer, no shuffle, no repeat, the time of day, full backlight, no hold, no sound check, speed 0. -/
inductive StateInfo (now : Time) : UInt8 → Bytes → Prop
  | position : StateInfo now 0x00 [0, 0, 0, 0]
  | track : StateInfo now 0x01 [0, 0, 0, 1]
  | chapter : StateInfo now 0x02 [0, 0, 0, 0, 0, 0, 0, 0]
  | playing : StateInfo now 0x03 [0x01]
  | volume : StateInfo now 0x04 [0x00, 0xFF]
  | power : StateInfo now 0x05 [0x05, 0xFF]
  | equalizer : StateInfo now 0x06 [0, 0, 0, 0]
  | shuffle : StateInfo now 0x07 [0x00]
  | repeating : StateInfo now 0x08 [0x00]
  | time (y) : IsBE 2 now.year.toNat y → StateInfo now 0x09 (y ++ [now.month, now.day, now.hour, now.minute])
  | backlight : StateInfo now 0x0B [0xFF]
  | hold : StateInfo now 0x0C [0x00]
  | soundCheck : StateInfo now 0x0D [0x00]
  | speed : StateInfo now 0x0E [0x00]
  | seconds : StateInfo now 0x0F [0, 0]
  | volume2 : StateInfo now 0x10 [0x00, 0xFF, 0xFF]

/-- Answers of Display Remote to the track infos. The texts of the infos 1 to 7 are lost. -/
inductive TrackInfo : UInt8 → Bytes → Prop
  | caps : TrackInfo 0x00 [0, 0, 0, 0, 0x00, 0x04, 0x93, 0xE0, 0, 0]
  | text (ty) : 1 ≤ UInt8.toNat ty → UInt8.toNat ty ≤ 7 → TrackInfo ty []
  | artworkCount : TrackInfo 0x08 [0x08]

/-- Answers of Extended Remote to the track infos. -/
inductive ExtTrackInfo : UInt8 → Bytes → Prop
  | caps : ExtTrackInfo 0x00 [0, 0, 0, 0, 0x00, 0x04, 0x93, 0xE0, 0x00, 0x01]
  | description : ExtTrackInfo 0x03 [0x00, 0x00, 0x00, 0x00]
  | lyrics : ExtTrackInfo 0x04 [0x00, 0x00, 0x00, 0x00]
  | artworkCount : ExtTrackInfo 0x07 []
  | other (ty) : ty ∉ [(0x00 : UInt8), 0x03, 0x04, 0x07] → ExtTrackInfo ty [0x00]

end Spec
