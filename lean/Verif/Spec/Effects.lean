import Verif.Model.Effects

/-!
What a caller of the handlers can observe: for each request, the calls made of the device, the writer, the clock and the
package variables, in order, with what they returned.
-/

namespace Spec.Effects
open Go Ipod Ipod.Effects

/-- A call that came back with `r`. -/
def got (c : Call) (r : c.Res) : Event := ⟨c, some r⟩

/-- A call of a method without result. -/
def told (c : Call) (h : c.Res = Unit := by rfl) : Event := ⟨c, some (h ▸ ())⟩

/-- A message under the transaction of the request handed to the writer, which returned `e`. `k` is the command id, the lingo
in the third byte. -/
def wrote (req : Command) (k : UInt32) (t : TypeId) (v : t.Val) (e : Option Err) : Event :=
  got (.writeCommand ⟨k, req.trx, .ptr t v⟩) e

/-- A message under the next transaction number of the iPod handed to the writer. -/
def originated (n : UInt16) (k : UInt32) (t : TypeId) (v : t.Val) (e : Option Err) : List Event :=
  [got .trxNext n, got (.writeCommand ⟨k, some n, .ptr t v⟩) e]

/-- The low byte of the command id, which an ACK of the General lingo repeats. -/
def lowByte (req : Command) : UInt8 := UInt8.ofNat (req.id.toNat % 256)

/-- An ACK of the General lingo handed to the writer. -/
def acked (req : Command) (status : UInt8) (e : Option Err) : Event :=
  wrote req 0x02 (.gen .ACK) (status, lowByte req, ()) e

/-- An ACK with the announcement that the rest takes up to 300 ms. -/
def ackedPending (req : Command) (e : Option Err) : Event :=
  wrote req 0x02 (.gen .ACKPending) (0x06, lowByte req, 300, ()) e

/-- The messages of the General lingo that make the handler do something. -/
def generalRequests : List GenT :=
  [.RequestRemoteUIMode, .EnterRemoteUIMode, .ExitRemoteUIMode, .RequestiPodName, .RequestiPodSoftwareVersion,
   .RequestiPodSerialNum, .RequestiPodModelNum, .RequestLingoProtocolVersion, .RequestTransportMaxPayloadSize,
   .IdentifyDeviceLingoes, .RetDevAuthenticationInfo, .RetDevAuthenticationSignature, .GetiPodAuthenticationInfo,
   .GetiPodAuthenticationSignature, .GetiPodOptions, .GetiPodPreferences, .SetiPodPreferences, .GetUIMode, .SetUIMode,
   .StartIDPS, .SetFIDTokenValues, .EndIDPS, .SetEventNotification, .GetiPodOptionsForLingo, .GetEventNotification,
   .GetSupportedEventNotification, .CancelCommand, .RequestApplicationLaunch, .GetNowPlayingFocusApp]

/-- A section of the certificate stored, of a certificate that begins (section 0) or goes on. -/
def stored (cur : UInt8) (data : Bytes) : List Event :=
  if cur = 0 then [told .certReset, told (.certWrite data)] else [told (.certWrite data)]

/-- `General req es`: `es` is a complete course of handling `req` with the handler of the General lingo. -/
inductive General (req : Command) : List Event → Prop
  | unknown (b e) : req.payload = .unknown b → General req [acked req 0x05 e]
  | nothing : req.payload = .nil → General req []
  | other (t v) : req.payload = .ptr t v → (∀ g ∈ generalRequests, t ≠ .gen g) → General req []
  | remoteUIMode (v) (m : UInt8) (e) : req.payload = .ptr (.gen .RequestRemoteUIMode) v →
      General req [got .uiMode m, wrote req 0x04 (.gen .ReturnRemoteUIMode) (if m = 0x01 then 0x01 else 0x00, ()) e]
  | alreadyEntered (v e) : req.payload = .ptr (.gen .EnterRemoteUIMode) v →
      General req [got .uiMode (0x01 : UInt8), acked req 0x00 e]
  | enter (v m e1 e2) : req.payload = .ptr (.gen .EnterRemoteUIMode) v → m ≠ (0x01 : UInt8) →
      General req [got .uiMode m, ackedPending req e1, told (.setUIMode 0x01), acked req 0x00 e2]
  | alreadyLeft (v m e) : req.payload = .ptr (.gen .ExitRemoteUIMode) v → m ≠ (0x01 : UInt8) →
      General req [got .uiMode m, acked req 0x00 e]
  | leave (v e1 e2) : req.payload = .ptr (.gen .ExitRemoteUIMode) v →
      General req [got .uiMode (0x01 : UInt8), ackedPending req e1, told (.setUIMode 0x00), acked req 0x00 e2]
  | name (v) (s : Bytes) (e) : req.payload = .ptr (.gen .RequestiPodName) v →
      General req [got .name s, wrote req 0x08 (.gen .ReturniPodName) (s ++ [0x00], ()) e]
  | softwareVersion (v) (a b c : UInt8) (e) : req.payload = .ptr (.gen .RequestiPodSoftwareVersion) v →
      General req [got .softwareVersion (a, b, c), wrote req 0x0A (.gen .ReturniPodSoftwareVersion) (a, b, c, ()) e]
  | serial (v) (s : Bytes) (e) : req.payload = .ptr (.gen .RequestiPodSerialNum) v →
      General req [got .serialNum s, wrote req 0x0C (.gen .ReturniPodSerialNum) (s ++ [0x00], ()) e]
  | model (v e) : req.payload = .ptr (.gen .RequestiPodModelNum) v →
      General req [wrote req 0x0E (.gen .ReturniPodModelNum)
        (0x00111349, [0x4D, 0x43, 0x36, 0x37, 0x36, 0x00], ()) e]
  | lingoVersion (lingo a b : UInt8) (u e) : req.payload = .ptr (.gen .RequestLingoProtocolVersion) (lingo, u) →
      General req [got (.lingoProtocolVersion lingo) (a, b), wrote req 0x10 (.gen .ReturnLingoProtocolVersion) (lingo, a, b, ()) e]
  | maxPayload (v) (n : UInt16) (e) : req.payload = .ptr (.gen .RequestTransportMaxPayloadSize) v →
      General req [got .maxPayload n, wrote req 0x12 (.gen .ReturnTransportMaxPayloadSize) (n, ()) e]
  | identify (a b u e) : req.payload = .ptr (.gen .IdentifyDeviceLingoes) (a, b, 0, u) → General req [acked req 0x00 e]
  | identifyAuth (a b) (dev : UInt32) (u e1 e2) : req.payload = .ptr (.gen .IdentifyDeviceLingoes) (a, b, dev, u) → dev ≠ 0 →
      General req [acked req 0x00 e1, wrote req 0x14 (.gen .GetDevAuthenticationInfo) () e2]
  | oldCert (major minor cur max : UInt8) (data u e) :
      req.payload = .ptr (.gen .RetDevAuthenticationInfo) (major, minor, cur, max, data, u) → major.toNat < 2 →
      General req [wrote req 0x16 (.gen .AckDevAuthenticationInfo) (0x00, ()) e]
  | certPart (major minor cur max : UInt8) (data u e) :
      req.payload = .ptr (.gen .RetDevAuthenticationInfo) (major, minor, cur, max, data, u) → 2 ≤ major.toNat →
      cur.toNat < max.toNat → General req (stored cur data ++ [acked req 0x00 e])
  | certLast (major minor cur max : UInt8) (data u) (cert : Bytes) (e1 e2) :
      req.payload = .ptr (.gen .RetDevAuthenticationInfo) (major, minor, cur, max, data, u) → 2 ≤ major.toNat →
      max.toNat ≤ cur.toNat →
      General req (stored cur data ++ [wrote req 0x16 (.gen .AckDevAuthenticationInfo) (0x00, ()) e1, got .certBytes cert,
        told (.accAuthCert cert), wrote req 0x17 (.gen .GetDevAuthenticationSignatureV2) (⟨List.replicate 20 0, rfl⟩, 0, ()) e2])
  | signature (v e) : req.payload = .ptr (.gen .RetDevAuthenticationSignature) v →
      General req [wrote req 0x19 (.gen .AckDevAuthenticationStatus) (0x00, ()) e]
  | ownCert (v e) : req.payload = .ptr (.gen .GetiPodAuthenticationInfo) v →
      General req [wrote req 0x1B (.gen .RetiPodAuthenticationInfo) (1, 1, 0, 0, [], ()) e]
  | ownSignature (challenge u e) : req.payload = .ptr (.gen .GetiPodAuthenticationSignature) (challenge, u) →
      General req [wrote req 0x1E (.gen .RetiPodAuthenticationSignature) (challenge, ()) e]
  | options (v e) : req.payload = .ptr (.gen .GetiPodOptions) v →
      General req [wrote req 0x25 (.gen .RetiPodOptions) (0, ()) e]
  | preference (cls s : UInt8) (u e) : req.payload = .ptr (.gen .GetiPodPreferences) (cls, u) →
      General req [got (.prefSettingID cls) s, wrote req 0x2A (.gen .RetiPodPreferences) (cls, s, ()) e]
  | setPreference (cls setting restore : UInt8) (u e) :
      req.payload = .ptr (.gen .SetiPodPreferences) (cls, setting, restore, u) →
      General req [told (.setPrefSettingID cls setting (restore = 0x01)), acked req 0x00 e]
  | uiMode (v) (m : UInt8) (e) : req.payload = .ptr (.gen .GetUIMode) v →
      General req [got .uiMode m, wrote req 0x36 (.gen .RetUIMode) (m, ()) e]
  | setUIMode (v e) : req.payload = .ptr (.gen .SetUIMode) v → General req [acked req 0x00 e]
  | startIDPS (v e) : req.payload = .ptr (.gen .StartIDPS) v →
      General req [told .trxReset, told .startIDPS, acked req 0x00 e]
  | tokens (ts u) (errs : List (Option Err)) (acks e) : req.payload = .ptr (.gen .SetFIDTokenValues) (ts, u) →
      errs.length = ts.length → acks.map FIDTokenValueACK.id = ts.map FIDTokenValue.id →
      acks.map FIDTokenValueACK.ack = ts.map (fun t => match t.token with
        | .accInfo kind _ => some [0x00, kind]
        | .ipodPref cls _ _ => some [0x00, cls]
        | .eaProtocol index _ => some [0x00, index]
        | .raw _ => none
        | .nil => none
        | _ => some [0x00]) →
      General req ((ts.zip errs).map (fun p => got (.setToken p.1) p.2) ++ [wrote req 0x3A (.gen .RetFIDTokenValueACKs) (acks, ()) e])
  | endContinue (u e1 n e2) : req.payload = .ptr (.gen .EndIDPS) (0x00, u) →
      General req ([told (.endIDPS 0x00), wrote req 0x3C (.gen .IDPSStatus) (0x00, ()) e1] ++
        originated n 0x14 (.gen .GetDevAuthenticationInfo) () e2)
  | endReset (u e) : req.payload = .ptr (.gen .EndIDPS) (0x01, u) →
      General req [told (.endIDPS 0x01), wrote req 0x3C (.gen .IDPSStatus) (0x04, ()) e]
  | endAbandon (u e) : req.payload = .ptr (.gen .EndIDPS) (0x02, u) →
      General req [told (.endIDPS 0x02), wrote req 0x3C (.gen .IDPSStatus) (0x06, ()) e]
  | endOther (status : UInt8) (u) : req.payload = .ptr (.gen .EndIDPS) (status, u) → 3 ≤ status.toNat →
      General req [told (.endIDPS status)]
  | setEvents (mask u e) : req.payload = .ptr (.gen .SetEventNotification) (mask, u) →
      General req [told (.setEventNotificationMask mask), acked req 0x00 e]
  | optionsFor (lingo : UInt8) (o : UInt64) (u e) : req.payload = .ptr (.gen .GetiPodOptionsForLingo) (lingo, u) →
      General req [got (.lingoOptions lingo) o, wrote req 0x4C (.gen .RetiPodOptionsForLingo) (lingo, o, ()) e]
  | events (v) (m : UInt64) (e) : req.payload = .ptr (.gen .GetEventNotification) v →
      General req [got .eventNotificationMask m, wrote req 0x4E (.gen .RetEventNotification) (m, ()) e]
  | supportedEvents (v) (m : UInt64) (e) : req.payload = .ptr (.gen .GetSupportedEventNotification) v →
      General req [got .supportedEventNotificationMask m, wrote req 0x51 (.gen .RetSupportedEventNotification) (m, ()) e]
  | cancel (lingo cmd trx u e) : req.payload = .ptr (.gen .CancelCommand) (lingo, cmd, trx, u) →
      General req [told (.cancelCommand lingo cmd trx), acked req 0x00 e]
  | launch (v e) : req.payload = .ptr (.gen .RequestApplicationLaunch) v → General req [acked req 0x02 e]
  | focusApp (v e) : req.payload = .ptr (.gen .GetNowPlayingFocusApp) v →
      General req [wrote req 0x66 (.gen .RetNowPlayingFocusApp) ([0x00], ()) e]

/-! ### The other lingos -/

/-- The results of handing `cmds` to the writer, one after another. -/
def wroteAll (cmds : List Command) (errs : List (Option Err)) : List Event :=
  (cmds.zip errs).map fun p => got (.writeCommand p.1) p.2

/-- Nothing has happened yet. -/
def blank : Ctx Unit := ⟨(), [], 0, [], 0⟩

/-- A question about a kind of information the display remote lingo does not have. -/
inductive UnknownInfo (req : Command) : Prop
  | state (ty : UInt8) (u) : req.payload = .ptr (.disp .GetiPodStateInfo) (ty, u) → ty.toNat = 10 ∨ 16 < ty.toNat → UnknownInfo req
  | track (ty : UInt8) (u) : req.payload = .ptr (.disp .GetIndexedPlayingTrackInfo) (ty, u) → 8 < ty.toNat → UnknownInfo req

/-- The message that brings the last section of a certificate, or a certificate of an old version. -/
def CertComplete (req : Command) : Prop :=
  ∃ (major minor cur max : UInt8) (data : Bytes) (u : Unit),
    req.payload = .ptr (.gen .RetDevAuthenticationInfo) (major, minor, cur, max, data, u) ∧
      (2 ≤ major.toNat → max.toNat ≤ cur.toNat)

/-- A question for date and time. -/
def AsksTime (req : Command) : Prop := ∃ u, req.payload = .ptr (.disp .GetiPodStateInfo) ((9 : UInt8), u)

/-! ### A device without surprises -/

/-- What a call returns when the device is `D`, the writer appends to a list, and nobody else uses the package variables. -/
def plainRes {σ : Type} (D : Device σ) (clock : Clock) (c : Ctx σ) : (x : Call) → x.Res
  | .uiMode => D.uiMode c.dev
  | .name => D.name c.dev
  | .softwareVersion => D.softwareVersion c.dev
  | .serialNum => D.serialNum c.dev
  | .lingoProtocolVersion l => D.lingoProtocolVersion c.dev l
  | .lingoOptions l => D.lingoOptions c.dev l
  | .prefSettingID k => D.prefSettingID c.dev k
  | .setToken _ => (none : Option Err)
  | .eventNotificationMask => D.eventNotificationMask c.dev
  | .supportedEventNotificationMask => D.supportedEventNotificationMask c.dev
  | .maxPayload => D.maxPayload c.dev
  | .playbackStatus => ((0, 0, 0) : UInt32 × UInt32 × UInt8)
  | .writeCommand _ => (none : Option Err)
  | .now => clock c.ticks
  | .trxNext => (c.counter + 1).toUInt16
  | .certBytes => c.certBuf
  | .setUIMode _ => ()
  | .setPrefSettingID _ _ _ => ()
  | .startIDPS => ()
  | .endIDPS _ => ()
  | .accAuthCert _ => ()
  | .setEventNotificationMask _ => ()
  | .cancelCommand _ _ _ => ()
  | .trxReset => ()
  | .certReset => ()
  | .certWrite _ => ()

/-- What it leaves behind. -/
def plainStep {σ : Type} (D : Device σ) (c : Ctx σ) : Call → Ctx σ
  | .setUIMode m => { c with dev := D.setUIMode c.dev m }
  | .setPrefSettingID a b r => { c with dev := D.setPrefSettingID c.dev a b r }
  | .startIDPS => { c with dev := D.startIDPS c.dev }
  | .endIDPS s => { c with dev := D.endIDPS c.dev s }
  | .setToken t => { c with dev := D.setToken c.dev t }
  | .accAuthCert b => { c with dev := D.accAuthCert c.dev b }
  | .setEventNotificationMask m => { c with dev := D.setEventNotificationMask c.dev m }
  | .cancelCommand l k t => { c with dev := D.cancelCommand c.dev l k t }
  | .writeCommand x => { c with out := c.out ++ [x] }
  | .now => { c with ticks := c.ticks + 1 }
  | .trxReset => { c with counter := 0 }
  | .trxNext => { c with counter := c.counter + 1 }
  | .certReset => { c with certBuf := [] }
  | .certWrite b => { c with certBuf := c.certBuf ++ b }
  | _ => c

/-- The state after a course. -/
def plainAfter {σ : Type} (D : Device σ) (c : Ctx σ) (es : List Event) : Ctx σ := es.foldl (fun c e => plainStep D c e.call) c

/-- The world of such a device, from state `c` on. -/
def plain {σ : Type} (D : Device σ) (clock : Clock) (c : Ctx σ) : World :=
  fun h x => some (plainRes D clock (plainAfter D c h) x)

end Spec.Effects
