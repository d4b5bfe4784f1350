import Verif.Spec.Constants
import Verif.Spec.Replies

/-! What the emulated iPod says about itself, as bytes on the wire. -/

namespace Spec
open Go Ipod

/-- `IpodReply k body k' reply`: the emulated iPod asked command `k` of the General lingo with `body` answers command `k'`
with `reply`. -/
inductive IpodReply : UInt8 → Bytes → UInt8 → Bytes → Prop
  /-- "ipod-gadget" -/
  | name : IpodReply 0x07 [] 0x08 [0x69, 0x70, 0x6F, 0x64, 0x2D, 0x67, 0x61, 0x64, 0x67, 0x65, 0x74, 0x00]
  /-- version 7.1.2 -/
  | softwareVersion : IpodReply 0x09 [] 0x0A [7, 1, 2]
  /-- "abcd1234" -/
  | serial : IpodReply 0x0B [] 0x0C [0x61, 0x62, 0x63, 0x64, 0x31, 0x32, 0x33, 0x34, 0x00]
  | versionGeneral : IpodReply 0x0F [0x00] 0x10 [0x00, 1, 9]
  | versionDisplayRemote : IpodReply 0x0F [0x03] 0x10 [0x03, 1, 5]
  | versionExtendedRemote : IpodReply 0x0F [0x04] 0x10 [0x04, 1, 12]
  | versionDigitalAudio : IpodReply 0x0F [0x0A] 0x10 [0x0A, 1, 2]
  | versionOther (l) : l ∉ [(0x00 : UInt8), 0x03, 0x04, 0x0A] → IpodReply 0x0F [l] 0x10 [l, 1, 1]
  | maxPayload : IpodReply 0x11 [] 0x12 [0xFF, 0xFF]
  | preference (cls) : IpodReply 0x29 [cls] 0x2A [cls, 0x00]
  | optionsGeneral : IpodReply 0x4B [0x00] 0x4C [0x00, 0x00, 0x00, 0x00, 0x06, 0x3D, 0xEF, 0x73, 0xFF]
  | optionsOther (l) : l ≠ 0x00 → IpodReply 0x4B [l] 0x4C [l, 0, 0, 0, 0, 0, 0, 0, 0]
  | eventMask : IpodReply 0x4D [] 0x4E [0, 0, 0, 0, 0, 0, 0, 0]
  | supportedEventMask : IpodReply 0x4F [] 0x51 [0, 0, 0, 0, 0, 0, 0, 0]

/-- `SettingPair set get ret`: after a packet with command and body `set` has been acknowledged with success, the question
`get` is to be answered with `ret` (command and body each): preferences and the event notification mask. -/
inductive SettingPair : UInt8 × Bytes → UInt8 × Bytes → UInt8 × Bytes → Prop
  | preference (cls setting restore) : SettingPair (0x2B, [cls, setting, restore]) (0x29, [cls]) (0x2A, [cls, setting])
  | eventMask (mask) : mask.length = 8 → SettingPair (0x49, mask) (0x4D, []) (0x4E, mask)

/-- The settings that set zero. -/
inductive ZeroSetting : UInt8 × Bytes → Prop
  | preference (cls restore) : ZeroSetting (0x2B, [cls, 0x00, restore])
  | eventMask : ZeroSetting (0x49, [0, 0, 0, 0, 0, 0, 0, 0])

/-- The packet `request` is acknowledged by `ack`, and then the
packet `question` is answered with `reply`. -/
def SetThenAsked {σ : Type} (D : Device σ) (clock : Clock) (c : Ctx σ) (mode : Bool) (request ack question reply : Bytes) :
    Prop :=
  ∃ set, unmarshalCmd mode request = .ret (mode, set, none) ∧
    ∀ c' new, Handles D clock set c c' new → (∃ x, new = [x] ∧ marshalCmd mode x = (mode, .ok ack)) ∧
      AnsweredBy D clock c' mode question reply

end Spec
