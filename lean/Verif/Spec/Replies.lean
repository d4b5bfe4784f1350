import Verif.Spec.Handlers

/-! Specification of the exchanges of the General lingo, on the bytes of request and reply. -/

namespace Spec
open Go Ipod

/-- A packet of the General lingo: lingo, command, transaction (if any), body. -/
def generalPacket (k : UInt8) (trx : Option UInt16) (body : Bytes) : Bytes := 0x00 :: k :: (transactionBytes trx ++ body)

/-- `DeviceReply D s k body k' reply`: a device in state `s` asked command `k` with `body` answers command `k'` with
`reply`. -/
inductive DeviceReply {σ : Type} (D : Device σ) (s : σ) : UInt8 → Bytes → UInt8 → Bytes → Prop
  | remoteUIMode : DeviceReply D s 0x03 [] 0x04 [if D.uiMode s = 0x01 then 0x01 else 0x00]
  | name : DeviceReply D s 0x07 [] 0x08 (D.name s ++ [0x00])
  | softwareVersion : DeviceReply D s 0x09 [] 0x0A
      [(D.softwareVersion s).1, (D.softwareVersion s).2.1, (D.softwareVersion s).2.2]
  | serial : DeviceReply D s 0x0B [] 0x0C (D.serialNum s ++ [0x00])
  | lingoVersion (l) : DeviceReply D s 0x0F [l] 0x10
      [l, (D.lingoProtocolVersion s l).1, (D.lingoProtocolVersion s l).2]
  | maxPayload (b) : IsBE 2 (D.maxPayload s).toNat b → DeviceReply D s 0x11 [] 0x12 b
  | preference (cls) : DeviceReply D s 0x29 [cls] 0x2A [cls, D.prefSettingID s cls]
  | uiMode : DeviceReply D s 0x35 [] 0x36 [D.uiMode s]
  | lingoOptions (l b) : IsBE 8 (D.lingoOptions s l).toNat b → DeviceReply D s 0x4B [l] 0x4C (l :: b)
  | eventMask (b) : IsBE 8 (D.eventNotificationMask s).toNat b → DeviceReply D s 0x4D [] 0x4E b
  | supportedEventMask (b) : IsBE 8 (D.supportedEventNotificationMask s).toNat b → DeviceReply D s 0x4F [] 0x51 b

/-- `DeviceSet D s k body s'`: command `k` with `body` takes the device from state `s` to `s'`. -/
inductive DeviceSet {σ : Type} (D : Device σ) (s : σ) : UInt8 → Bytes → σ → Prop
  | preference (cls setting restore) : DeviceSet D s 0x2B [cls, setting, restore]
      (D.setPrefSettingID s cls setting (restore = 0x01))
  | startIDPS : DeviceSet D s 0x38 [] (D.startIDPS s)
  | eventMask (mask b) : IsBE 8 (UInt64.toNat mask) b → DeviceSet D s 0x49 b (D.setEventNotificationMask s mask)
  | cancel (lingo cmd trx bc bt) : IsBE 2 (UInt16.toNat cmd) bc → IsBE 2 (UInt16.toNat trx) bt →
      DeviceSet D s 0x50 (lingo :: (bc ++ bt)) (D.cancelCommand s lingo cmd trx)

/-- Is it an ACKPending? -/
def isPending : Payload → Bool
  | .ptr (.gen .ACKPending) _ => true
  | _ => false

/-- Is it a payload of unknown type? -/
def isUnknown : Payload → Bool
  | .unknown _ => true
  | _ => false

/-- The status an ACK `ack` sent in answer to `req` must have: 0x05 for unknown commands, 0x06 for a pending ACK, 0x02 for
the commands that cannot be served (RequestApplicationLaunch of General, GetTrackArtworkData and
ResetDBSelectionHierarchy of Extended Remote), 0x00 for all others. -/
def ackStatusOf (req ack : Command) : UInt8 :=
  if isUnknown req.payload then 0x05
  else if isPending ack.payload then 0x06
  else if idPair req.id ∈ [(0x00, 0x64), (0x04, 0x10), (0x04, 0x3B)] then 0x02
  else 0x00

/-- A token of a type the emulator does not know. -/
def UnknownToken (v : FIDTokenValue) : Prop := (∃ b, v.token = .raw b) ∨ v.token = .nil

/-- The requests whose response cannot be encoded: six message types have neither fixed size nor an encoder, and the
acknowledgement of an unknown token is nil. -/
inductive Unsendable (req : Command) : Prop
  | authInfo (v) : req.payload = .ptr (.gen .GetiPodAuthenticationInfo) v → Unsendable req
  | focusApp (v) : req.payload = .ptr (.gen .GetNowPlayingFocusApp) v → Unsendable req
  | chapterName (v) : req.payload = .ptr (.ext .GetCurrentPlayingTrackChapterName) v → Unsendable req
  | eqName (v) : req.payload = .ptr (.disp .GetIndexedEQProfileName) v → Unsendable req
  | artworkFormats (v) : req.payload = .ptr (.disp .GetArtworkFormats) v → Unsendable req
  | artworkTimes (v) : req.payload = .ptr (.disp .GetTrackArtworkTimes) v → Unsendable req
  | tokens (ts u) : req.payload = .ptr (.gen .SetFIDTokenValues) (ts, u) → (∃ t ∈ ts, UnknownToken t) → Unsendable req

/-- The acknowledgement of a token: status 0 (accepted), then which one of its kind it was, for the tokens that may be sent
several times (accessory infos, preferences, protocols). -/
def TokenAcked (t : FIDTokenValue) (a : FIDTokenValueACK) : Prop :=
  a.id = t.id ∧ ∃ which, a.ack = some (0x00 :: which) ∧
    match t.token with
    | .accInfo kind _ => which = [kind]
    | .ipodPref cls _ _ => which = [cls]
    | .eaProtocol index _ => which = [index]
    | _ => which = []

/-- One acknowledgement per token, in order. -/
inductive EachAcked : List FIDTokenValue → List FIDTokenValueACK → Prop
  | nil : EachAcked [] []
  | cons {t a ts as} : TokenAcked t a → EachAcked ts as → EachAcked (t :: ts) (a :: as)

end Spec
