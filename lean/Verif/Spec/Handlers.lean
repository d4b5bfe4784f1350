import Verif.Model.Handlers
import Verif.Spec.Serde

/-! Vocabulary for the properties of the handlers. -/

namespace Spec
open Go Ipod

/-- Handling `cmd` in state `c` leads to state `c'` and emits the commands `new`. -/
def Handles {σ : Type} (D : Device σ) (clock : Clock) (cmd : Command) (c c' : Ctx σ) (new : List Command) : Prop :=
  handlePacket D clock cmd c = .ret c' ∧ c'.out = c.out ++ new

/-- A command as the serializer delivers it, for some packet in some mode. -/
def Received (cmd : Command) : Prop := ∃ mode pkt mode' err, unmarshalCmd mode pkt = .ret (mode', cmd, err)

/-- Requests the device makes on its own account: GetAccSampleRateCaps, and GetDevAuthenticationInfo when it follows
EndIDPS. -/
def DeviceOriginated (cmd x : Command) : Prop :=
  x.payload = .ptr (.aud .GetAccSampleRateCaps) () ∨
  (∃ v, cmd.payload = .ptr (.gen .EndIDPS) v) ∧ x.payload = .ptr (.gen .GetDevAuthenticationInfo) ()

instance (cmd x : Command) : Decidable (DeviceOriginated cmd x) :=
  haveI : Decidable (∃ v, cmd.payload = .ptr (.gen .EndIDPS) v) :=
    match cmd.payload with
    | .nil => isFalse (by simp)
    | .unknown _ => isFalse (by simp)
    | .ptr t v =>
      if h : t = .gen .EndIDPS then isTrue (by subst h; exact ⟨v, rfl⟩)
      else isFalse (by rintro ⟨w, hw⟩; injection hw with h1; exact h h1)
  inferInstanceAs (Decidable (_ ∨ _))

/-- The command id an acknowledgement refers to. -/
inductive AckFor : Payload → Nat → Prop
  | general (s n) : AckFor (.ptr (.gen .ACK) (s, n, ())) n.toNat
  | pending (s n w) : AckFor (.ptr (.gen .ACKPending) (s, n, w, ())) n.toNat
  | dropped (s n x y) : AckFor (.ptr (.gen .ACKDataDropped) (s, n, x, y, ())) n.toNat
  | display (s n) : AckFor (.ptr (.disp .ACK) (s, n, ())) n.toNat
  | extended (s n) : AckFor (.ptr (.ext .ACK) (s, n, ())) n.toNat
  | audio (s n) : AckFor (.ptr (.aud .iPodAck) (s, n, ())) n.toNat

/-- Does the command ask for entering (`true`) or leaving (`false`) the remote UI mode? -/
def remoteSwitch (cmd : Command) : Option Bool :=
  match cmd.payload with
  | .ptr (.gen .EnterRemoteUIMode) _ => some true
  | .ptr (.gen .ExitRemoteUIMode) _ => some false
  | _ => none

/-- The last Enter/Exit of a history was an Enter. -/
def EnteredLast (cmds : List Command) : Prop := (cmds.filterMap remoteSwitch).getLast? = some true

instance (cmds : List Command) : Decidable (EnteredLast cmds) := inferInstanceAs (Decidable (_ = _))

/-- Is it StartIDPS? -/
def isStartIDPS (cmd : Command) : Bool :=
  match cmd.payload with
  | .ptr (.gen .StartIDPS) _ => true
  | _ => false

/-- The tokens a command carries. -/
def tokensOf (cmd : Command) : List FIDTokenValue :=
  match cmd.payload with
  | .ptr (.gen .SetFIDTokenValues) (ts, _) => ts
  | _ => []

/-- The tokens received since the last StartIDPS (or since the beginning). -/
def tokensSinceStart (cmds : List Command) : List FIDTokenValue :=
  ((cmds.reverse.takeWhile fun c => !isStartIDPS c).reverse.map tokensOf).flatten

/-- A section of a version-2 (or later) accessory certificate: current section, last section, data. -/
def certSection (cmd : Command) : Option (UInt8 × UInt8 × Bytes) :=
  match cmd.payload with
  | .ptr (.gen .RetDevAuthenticationInfo) (major, _, cur, max, data, _) =>
    if 2 ≤ major.toNat then some (cur, max, data) else none
  | _ => none

/-- The certificate sections `i .. max` arrive in order, the last command being the last section, with any other
commands in between; `ds` is what they carry. -/
inductive Sections (max : UInt8) : Nat → List Command → List Bytes → Prop
  | last (cmd : Command) (data : Bytes) (cur : UInt8) (i : Nat) : certSection cmd = some (cur, max, data) →
      cur.toNat = i → i = max.toNat → Sections max i [cmd] [data]
  | next (cmd : Command) (data : Bytes) (cur : UInt8) (i : Nat) (cmds : List Command) (ds : List Bytes) :
      certSection cmd = some (cur, max, data) → cur.toNat = i → i < max.toNat → Sections max (i + 1) cmds ds →
      Sections max i (cmd :: cmds) (data :: ds)
  | other (cmd : Command) (i : Nat) (cmds : List Command) (ds : List Bytes) : certSection cmd = none →
      Sections max i cmds ds → Sections max i (cmd :: cmds) ds

/-- The protocol's answers: for a request (lingo, command), the possible lists of (lingo, command) sent back. -/
def answers (lingo cmd : Nat) : List (List (Nat × Nat)) :=
  if lingo = 0x00 then
    if cmd ∈ [0x03, 0x07, 0x09, 0x0B, 0x0D, 0x0F, 0x11, 0x18, 0x1A, 0x1D, 0x24, 0x29, 0x35, 0x39, 0x4B, 0x4D, 0x65] then
      [[(0x00, cmd + 1)]]
    else if cmd = 0x4F then [[(0x00, 0x51)]]
    else if cmd ∈ [0x2B, 0x37, 0x38, 0x49, 0x50, 0x64] then [[(0x00, 0x02)]]
    else if cmd ∈ [0x05, 0x06] then [[(0x00, 0x02)], [(0x00, 0x02), (0x00, 0x02)]]
    else if cmd = 0x13 then [[(0x00, 0x02)], [(0x00, 0x02), (0x00, 0x14)]]
    else if cmd = 0x15 then
      [[(0x00, 0x02)], [(0x0A, 0x02), (0x00, 0x16)], [(0x0A, 0x02), (0x00, 0x16), (0x00, 0x17)]]
    else if cmd = 0x3B then [[(0x00, 0x3C), (0x00, 0x14)], [(0x00, 0x3C)], []]
    else [[]]
  else if lingo = 0x03 then
    if cmd ∈ [0x01, 0x04, 0x06, 0x0A, 0x0F, 0x14, 0x16, 0x1A, 0x1C, 0x1F] then [[(0x03, cmd + 1)]]
    else if cmd ∈ [0x0C, 0x12] then [[(0x03, cmd + 1)], []]
    else if cmd ∈ [0x03, 0x08, 0x0E, 0x11, 0x1E] then [[(0x03, 0x00)]]
    else [[]]
  else if lingo = 0x04 then
    if cmd ∈ [0x02, 0x05, 0x07, 0x09, 0x0C, 0x0E, 0x18, 0x1A, 0x1C, 0x1E, 0x20, 0x22, 0x24, 0x2A, 0x2C, 0x2F, 0x33, 0x35,
        0x39] then [[(0x04, cmd + 1)]]
    else if cmd ∈ [0x04, 0x0B, 0x10, 0x16, 0x17, 0x26, 0x28, 0x29, 0x2E, 0x31, 0x32, 0x3B] then [[(0x04, 0x01)]]
    else [[]]
  else if lingo = 0x0A then
    if cmd = 0x03 then [[(0x0A, 0x04)]] else [[]]
  else [[]]

/-- (lingo, command) of a command id. -/
def idPair (id : UInt32) : Nat × Nat := ((LingoCmdID.lingoID id).toNat, (LingoCmdID.cmdID id).toNat)

/-- The status an acknowledgement carries. -/
inductive AckStatus : Payload → UInt8 → Prop
  | general (s n) : AckStatus (.ptr (.gen .ACK) (s, n, ())) s
  | pending (s n w) : AckStatus (.ptr (.gen .ACKPending) (s, n, w, ())) s
  | display (s n) : AckStatus (.ptr (.disp .ACK) (s, n, ())) s
  | extended (s n) : AckStatus (.ptr (.ext .ACK) (s, n, ())) s

/-- A device that behaves like `D` and records the certificates it is handed. -/
def recording {σ : Type} (D : Device σ) : Device (σ × List Bytes) where
  uiMode s := D.uiMode s.1
  setUIMode s m := (D.setUIMode s.1 m, s.2)
  name s := D.name s.1
  softwareVersion s := D.softwareVersion s.1
  serialNum s := D.serialNum s.1
  lingoProtocolVersion s l := D.lingoProtocolVersion s.1 l
  lingoOptions s l := D.lingoOptions s.1 l
  prefSettingID s c := D.prefSettingID s.1 c
  setPrefSettingID s c i r := (D.setPrefSettingID s.1 c i r, s.2)
  startIDPS s := (D.startIDPS s.1, s.2)
  endIDPS s x := (D.endIDPS s.1 x, s.2)
  setToken s t := (D.setToken s.1 t, s.2)
  accAuthCert s b := (D.accAuthCert s.1 b, s.2 ++ [b])
  setEventNotificationMask s m := (D.setEventNotificationMask s.1 m, s.2)
  eventNotificationMask s := D.eventNotificationMask s.1
  supportedEventNotificationMask s := D.supportedEventNotificationMask s.1
  cancelCommand s l c t := (D.cancelCommand s.1 l c t, s.2)
  maxPayload s := D.maxPayload s.1

/-- The accessory's authentication info is complete: version below 2, or last certificate section. -/
def AuthInfoComplete (cmd : Command) : Prop :=
  ∃ major minor cur max data, cmd.payload = .ptr (.gen .RetDevAuthenticationInfo) (major, minor, cur, max, data, ()) ∧
    (major.toNat < 2 ∨ max.toNat ≤ cur.toNat)

/-- The last section of a certificate of version 2 or above. -/
def LastSection (cmd : Command) : Prop :=
  ∃ major minor cur max data, cmd.payload = .ptr (.gen .RetDevAuthenticationInfo) (major, minor, cur, max, data, ()) ∧
    2 ≤ major.toNat ∧ max.toNat ≤ cur.toNat

/-- A request for the accessory's signature, of either version. -/
def IsSignatureRequest (p : Payload) : Prop :=
  (∃ v, p = .ptr (.gen .GetDevAuthenticationSignatureV1) v) ∨ (∃ v, p = .ptr (.gen .GetDevAuthenticationSignatureV2) v)

end Spec
