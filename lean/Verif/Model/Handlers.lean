import Verif.Model.Serde
import Verif.Model.Util

/-!
# Model of the lingo handlers

lingo-general/handler.go, lingo-dispremote/handler.go, lingo-extremote/handler.go, lingo-audio/handler.go, the device
of cmd/ipod/general.go and `handlePacket` of cmd/ipod/main.go.

The state the handlers work on is a `Ctx`: the device, the package variable `accCertBuf`, the transaction counter, the
commands written so far, and how often the clock was read.
-/

namespace Ipod
open Go

/-- handler.go:9-34 `DeviceGeneral` over a device state `σ`. Simplification: the queries do not change the device. The
error of `SetToken` is ignored by the handler (handler.go:216), hence left out. -/
structure Device (σ : Type) where
  uiMode : σ → UInt8
  setUIMode : σ → UInt8 → σ
  name : σ → Bytes
  softwareVersion : σ → UInt8 × UInt8 × UInt8
  serialNum : σ → Bytes
  lingoProtocolVersion : σ → UInt8 → UInt8 × UInt8
  lingoOptions : σ → UInt8 → UInt64
  prefSettingID : σ → UInt8 → UInt8
  setPrefSettingID : σ → UInt8 → UInt8 → Bool → σ
  startIDPS : σ → σ
  endIDPS : σ → UInt8 → σ
  setToken : σ → FIDTokenValue → σ
  accAuthCert : σ → Bytes → σ
  setEventNotificationMask : σ → UInt64 → σ
  eventNotificationMask : σ → UInt64
  supportedEventNotificationMask : σ → UInt64
  cancelCommand : σ → UInt8 → UInt16 → UInt16 → σ
  maxPayload : σ → UInt16

/-- Fields of a `time.Time` after the conversions of dispremote/handler.go:76-80. -/
structure Time where
  year : UInt16
  month : UInt8
  day : UInt8
  hour : UInt8
  minute : UInt8
deriving DecidableEq, Repr

/-- What `time.Now()` gives the n-th time it is asked. See lingo-dispremote/handler.go:75. -/
abbrev Clock := Nat → Time

/-- The state of the handlers. `certBuf` is the content of `accCertBuf` (lingo-general/handler.go:91), `counter` is
`trxCounter` (cmd.go:187), `out` the `CmdBuffer` written to (cmd.go:206-213), `ticks` counts the calls of `time.Now()`.
-/
structure Ctx (σ : Type) where
  dev : σ
  certBuf : Bytes
  counter : UInt32
  out : List Command
  ticks : Nat

/-- `ipod.Respond(req, tr, &msg)` (cmd.go:177-185). -/
def Ctx.respond {σ : Type} (c : Ctx σ) (req : Command) (t : TypeId) (v : t.Val) : Out (Ctx σ) :=
  Ipod.respond req c.out (.ptr t v) >>= fun out => .ret { c with out := out }

/-- `ipod.Send(tr, &msg)` (cmd.go:197-204). -/
def Ctx.send {σ : Type} (c : Ctx σ) (t : TypeId) (v : t.Val) : Out (Ctx σ) :=
  Ipod.send c.counter c.out (.ptr t v) >>= fun (n, out) => .ret { c with counter := n, out := out }

/-! ### General lingo -/

/-- general.go:420-426 `UIMode`. -/
abbrev uiModeStandart : UInt8 := 0x00
/-- See lingo-general/general.go:424. -/
abbrev uiModeExtended : UInt8 := 0x01

/-- general.go:101-106 `ACKStatus`. -/
abbrev ackStatusSuccess : UInt8 := 0x00
/-- See lingo-general/general.go:103. -/
abbrev ackStatusFailed : UInt8 := 0x02
/-- See lingo-general/general.go:104. -/
abbrev ackStatusUnknownID : UInt8 := 0x05
/-- See lingo-general/general.go:105. -/
abbrev ackStatusPending : UInt8 := 0x06

/-- handler.go:36-38 `ackSuccess` with `Respond`. -/
def Ctx.ackSuccess {σ : Type} (c : Ctx σ) (req : Command) : Out (Ctx σ) :=
  c.respond req (.gen .ACK) (ackStatusSuccess, req.id.cmdID.toUInt8, ())

/-- handler.go:40-42 `ackPending` with `Respond`. -/
def Ctx.ackPending {σ : Type} (c : Ctx σ) (req : Command) (maxWait : UInt32) : Out (Ctx σ) :=
  c.respond req (.gen .ACKPending) (ackStatusPending, req.id.cmdID.toUInt8, maxWait, ())

/-- handler.go:44-46 `ack` with `Respond`. -/
def Ctx.ack {σ : Type} (c : Ctx σ) (req : Command) (status : UInt8) : Out (Ctx σ) :=
  c.respond req (.gen .ACK) (status, req.id.cmdID.toUInt8, ())

/-- handler.go:48-79 `ackFIDTokenValue`. -/
def ackFIDTokenValue (v : FIDTokenValue) : FIDTokenValueACK :=
  ⟨v.id,
    match v.token with
    | .identify _ _ _ => some [0x00]
    | .accCaps _ => some [0x00]
    | .accInfo ty _ => some [0x00, ty]
    | .ipodPref cls _ _ => some [0x00, cls]
    | .eaProtocol i _ => some [0x00, i]
    | .bundleSeed _ => some [0x00]
    | .screenInfo _ _ _ _ _ _ _ _ => some [0x00]
    | .eaMetadata _ _ => some [0x00]
    | .micCaps _ => some [0x00]
    | .raw _ => none
    | .nil => none⟩

/-- handler.go:81-89 `ackFIDTokenValues`. -/
def ackFIDTokenValues (vs : List FIDTokenValue) : List FIDTokenValueACK := vs.map ackFIDTokenValue

/-- The Go string literals of the handlers, as bytes. See lingo-extremote/handler.go, lingo-dispremote/handler.go. -/
def str (s : String) : Bytes := s.toUTF8.toList

/-- handler.go:93-278 `HandleGeneral`; it always returns nil. -/
def handleGeneral {σ : Type} (D : Device σ) (req : Command) (c : Ctx σ) : Out (Ctx σ) :=
  match req.payload with
  | .nil => .ret c
  | .unknown _ => c.ack req ackStatusUnknownID
  | .ptr (.gen .RequestRemoteUIMode) _ =>
    c.respond req (.gen .ReturnRemoteUIMode) (boolToByte (D.uiMode c.dev = uiModeExtended), ())
  | .ptr (.gen .EnterRemoteUIMode) _ =>
    if D.uiMode c.dev = uiModeExtended then c.ackSuccess req
    else
      c.ackPending req 300 >>= fun c =>
      let c := { c with dev := D.setUIMode c.dev uiModeExtended }
      c.ackSuccess req
  | .ptr (.gen .ExitRemoteUIMode) _ =>
    if D.uiMode c.dev ≠ uiModeExtended then c.ackSuccess req
    else
      c.ackPending req 300 >>= fun c =>
      let c := { c with dev := D.setUIMode c.dev uiModeStandart }
      c.ackSuccess req
  | .ptr (.gen .RequestiPodName) _ => c.respond req (.gen .ReturniPodName) (stringToBytes (D.name c.dev), ())
  | .ptr (.gen .RequestiPodSoftwareVersion) _ =>
    let (major, minor, rev) := D.softwareVersion c.dev
    c.respond req (.gen .ReturniPodSoftwareVersion) (major, minor, rev, ())
  | .ptr (.gen .RequestiPodSerialNum) _ =>
    c.respond req (.gen .ReturniPodSerialNum) (stringToBytes (D.serialNum c.dev), ())
  | .ptr (.gen .RequestiPodModelNum) _ =>
    c.respond req (.gen .ReturniPodModelNum) (0x00111349, stringToBytes (str "MC676"), ())
  | .ptr (.gen .RequestLingoProtocolVersion) (lingo, _) =>
    let (major, minor) := D.lingoProtocolVersion c.dev lingo
    c.respond req (.gen .ReturnLingoProtocolVersion) (lingo, major, minor, ())
  | .ptr (.gen .RequestTransportMaxPayloadSize) _ =>
    c.respond req (.gen .ReturnTransportMaxPayloadSize) (D.maxPayload c.dev, ())
  | .ptr (.gen .IdentifyDeviceLingoes) (_, _, deviceID, _) =>
    c.ackSuccess req >>= fun c =>
    if deviceID ≠ 0x00 then c.respond req (.gen .GetDevAuthenticationInfo) () else .ret c
  | .ptr (.gen .RetDevAuthenticationInfo) (major, _, cur, max, data, _) =>
    if major ≥ 2 then
      let c := if cur = 0 then { c with certBuf := [] } else c
      let c := { c with certBuf := c.certBuf ++ data }
      if cur < max then c.ackSuccess req
      else
        c.respond req (.gen .AckDevAuthenticationInfo) (0x00, ()) >>= fun c =>
        let c := { c with dev := D.accAuthCert c.dev c.certBuf }
        c.respond req (.gen .GetDevAuthenticationSignatureV2) (⟨List.replicate 20 0, rfl⟩, 0, ())
    else c.respond req (.gen .AckDevAuthenticationInfo) (0x00, ())
  | .ptr (.gen .RetDevAuthenticationSignature) _ => c.respond req (.gen .AckDevAuthenticationStatus) (0x00, ())
  | .ptr (.gen .GetiPodAuthenticationInfo) _ =>
    c.respond req (.gen .RetiPodAuthenticationInfo) (1, 1, 0, 0, [], ())
  | .ptr (.gen .AckiPodAuthenticationInfo) _ => .ret c
  | .ptr (.gen .GetiPodAuthenticationSignature) (challenge, _) =>
    c.respond req (.gen .RetiPodAuthenticationSignature) (challenge, ())
  | .ptr (.gen .AckiPodAuthenticationStatus) _ => .ret c
  | .ptr (.gen .GetiPodOptions) _ => c.respond req (.gen .RetiPodOptions) (0x00, ())
  | .ptr (.gen .RetAccessoryInfo) _ => .ret c
  | .ptr (.gen .GetiPodPreferences) (cls, _) =>
    c.respond req (.gen .RetiPodPreferences) (cls, D.prefSettingID c.dev cls, ())
  | .ptr (.gen .SetiPodPreferences) (cls, setting, restore, _) =>
    let c := { c with dev := D.setPrefSettingID c.dev cls setting (byteToBool restore) }
    c.ackSuccess req
  | .ptr (.gen .GetUIMode) _ => c.respond req (.gen .RetUIMode) (D.uiMode c.dev, ())
  | .ptr (.gen .SetUIMode) _ => c.ackSuccess req
  | .ptr (.gen .StartIDPS) _ =>
    let c := { c with counter := trxReset, dev := D.startIDPS c.dev }
    c.ackSuccess req
  | .ptr (.gen .SetFIDTokenValues) (tokens, _) =>
    let c := { c with dev := tokens.foldl D.setToken c.dev }
    c.respond req (.gen .RetFIDTokenValueACKs) (ackFIDTokenValues tokens, ())
  | .ptr (.gen .EndIDPS) (status, _) =>
    let c := { c with dev := D.endIDPS c.dev status }
    if status = 0x00 then
      c.respond req (.gen .IDPSStatus) (0x00, ()) >>= fun c => c.send (.gen .GetDevAuthenticationInfo) ()
    else if status = 0x01 then c.respond req (.gen .IDPSStatus) (0x04, ())
    else if status = 0x02 then c.respond req (.gen .IDPSStatus) (0x06, ())
    else .ret c
  | .ptr (.gen .AccessoryStatusNotification) _ => .ret c
  | .ptr (.gen .SetEventNotification) (mask, _) =>
    let c := { c with dev := D.setEventNotificationMask c.dev mask }
    c.ackSuccess req
  | .ptr (.gen .GetiPodOptionsForLingo) (lingo, _) =>
    c.respond req (.gen .RetiPodOptionsForLingo) (lingo, D.lingoOptions c.dev lingo, ())
  | .ptr (.gen .GetEventNotification) _ =>
    c.respond req (.gen .RetEventNotification) (D.eventNotificationMask c.dev, ())
  | .ptr (.gen .GetSupportedEventNotification) _ =>
    c.respond req (.gen .RetSupportedEventNotification) (D.supportedEventNotificationMask c.dev, ())
  | .ptr (.gen .CancelCommand) (lingo, cmd, trx, _) =>
    let c := { c with dev := D.cancelCommand c.dev lingo cmd trx }
    c.ackSuccess req
  | .ptr (.gen .SetAvailableCurrent) _ => .ret c
  | .ptr (.gen .RequestApplicationLaunch) _ => c.ack req ackStatusFailed
  | .ptr (.gen .GetNowPlayingFocusApp) _ => c.respond req (.gen .RetNowPlayingFocusApp) (stringToBytes [], ())
  | .ptr _ _ => .ret c

/-! ### Display remote lingo -/

/-- dispremote/handler.go:50-101: the info answering `GetiPodStateInfo`; `none` is the error of line 100. -/
def dispStateInfo (ty : UInt8) (now : Time) : Option DispState :=
  match ty.toNat with
  | 0 => some (.trackPositionMs 0)
  | 1 => some (.trackIndex 1)
  | 2 => some (.chapterIndex 0 0 0)
  | 3 => some (.playStatus 1)
  | 4 => some (.volume 0x00 255)
  | 5 => some (.power 0x05 255)
  | 6 => some (.equalizer 0x00)
  | 7 => some (.shuffle 0x00)
  | 8 => some (.repeat 0x00)
  | 9 => some (.dateTime now.year now.month now.day now.hour now.minute)
  | 11 => some (.backlight 255)
  | 12 => some (.holdSwitch 0x00)
  | 13 => some (.soundCheck 0x00)
  | 14 => some (.audiobookSpeed 0x00)
  | 15 => some (.trackPositionSec 0)
  | 16 => some (.volume2 0x00 255 255)
  | _ => none

/-- dispremote/handler.go:120-164: the info answering `GetIndexedPlayingTrackInfo`; `none` is the error of line 163. -/
def dispTrackInfo (ty : UInt8) : Option DispTrack :=
  match ty.toNat with
  | 0 => some (.caps 0x00 300000 0)
  | 1 => some (.chapterTimeName 0 (stringToBytes []))
  | 2 => some (.artist (stringToBytes []))
  | 3 => some (.album (stringToBytes []))
  | 4 => some (.genre (stringToBytes []))
  | 5 => some (.track (stringToBytes (str "track")))
  | 6 => some (.composer (stringToBytes []))
  | 7 => some (.lyrics 0x00 0 (stringToBytes []))
  | 8 => some (.artworkCount 0x08)
  | _ => none

/-- dispremote/handler.go:13-15 `ackSuccess` with `Respond`. -/
def Ctx.dispAck {σ : Type} (c : Ctx σ) (req : Command) : Out (Ctx σ) :=
  c.respond req (.disp .ACK) (0x00, req.id.cmdID.toUInt8, ())

/-- dispremote/handler.go:17-194 `HandleDispRemote`; the device is unused. Its error is ignored by the caller
(main.go:402), hence left out. -/
def handleDispRemote {σ : Type} (clock : Clock) (req : Command) (c : Ctx σ) : Out (Ctx σ) :=
  match req.payload with
  | .nil => .ret c
  | .unknown _ => .ret c
  | .ptr (.disp .GetCurrentEQProfileIndex) _ => c.respond req (.disp .RetCurrentEQProfileIndex) (0, ())
  | .ptr (.disp .SetCurrentEQProfileIndex) _ => c.dispAck req
  | .ptr (.disp .GetNumEQProfiles) _ => c.respond req (.disp .RetNumEQProfiles) (1, ())
  | .ptr (.disp .GetIndexedEQProfileName) _ =>
    c.respond req (.disp .RetIndexedEQProfileName) (stringToBytes (str "Default"), ())
  | .ptr (.disp .SetRemoteEventNotification) _ => c.dispAck req
  | .ptr (.disp .GetRemoteEventStatus) _ => c.respond req (.disp .RetRemoteEventStatus) (0, ())
  | .ptr (.disp .GetiPodStateInfo) (ty, _) =>
    match dispStateInfo ty (clock c.ticks) with
    | none => .ret c
    | some info =>
      let c := if ty = 9 then { c with ticks := c.ticks + 1 } else c
      c.respond req (.disp .RetiPodStateInfo) (ty, info, ())
  | .ptr (.disp .SetiPodStateInfo) _ => c.dispAck req
  | .ptr (.disp .GetPlayStatus) _ => c.respond req (.disp .RetPlayStatus) (0, 0, 0, 0, ())
  | .ptr (.disp .SetCurrentPlayingTrack) _ => c.dispAck req
  | .ptr (.disp .GetIndexedPlayingTrackInfo) (ty, _) =>
    match dispTrackInfo ty with
    | none => .ret c
    | some info => c.respond req (.disp .RetIndexedPlayingTrackInfo) (ty, info, ())
  | .ptr (.disp .GetNumPlayingTracks) _ => c.respond req (.disp .RetNumPlayingTracks) (0, ())
  | .ptr (.disp .GetArtworkFormats) _ => c.respond req (.disp .RetArtworkFormats) ([], ())
  | .ptr (.disp .GetTrackArtworkData) _ => .ret c
  | .ptr (.disp .GetPowerBatteryState) _ => c.respond req (.disp .RetPowerBatteryState) (0x01, 255, ())
  | .ptr (.disp .GetSoundCheckState) _ => c.respond req (.disp .RetSoundCheckState) (false, ())
  | .ptr (.disp .SetSoundCheckState) _ => c.dispAck req
  | .ptr (.disp .GetTrackArtworkTimes) _ => c.respond req (.disp .RetTrackArtworkTimes) ([], ())
  | .ptr _ _ => .ret c

/-! ### Extended remote lingo -/

/-- extremote/handler.go:11-13 `ackSuccess` with `Respond`. -/
def Ctx.extAck {σ : Type} (c : Ctx σ) (req : Command) : Out (Ctx σ) :=
  c.respond req (.ext .ACK) (0x00, req.id.cmdID, ())

/-- extremote/handler.go:72-76, 150: `ACKStatusFailed`. -/
def Ctx.extFail {σ : Type} (c : Ctx σ) (req : Command) : Out (Ctx σ) :=
  c.respond req (.ext .ACK) (0x02, req.id.cmdID, ())

/-- extremote/handler.go:46-66: the info answering `GetIndexedPlayingTrackInfo`. -/
def extTrackInfo (ty : UInt8) : ExtInfo :=
  if ty = 0x00 then .caps 0x0 300000 1
  else if ty = 0x03 ∨ ty = 0x04 then .longText 0x0 0 0x00
  else if ty = 0x07 then .emptyVal
  else .bytes [0x00]

/-- extremote/handler.go:19-165 `HandleExtRemote`; it always returns nil and does not use the device. -/
def handleExtRemote {σ : Type} (req : Command) (c : Ctx σ) : Out (Ctx σ) :=
  match req.payload with
  | .nil => .ret c
  | .unknown _ => .ret c
  | .ptr (.ext .GetCurrentPlayingTrackChapterInfo) _ =>
    c.respond req (.ext .ReturnCurrentPlayingTrackChapterInfo) (0, 1, ())
  | .ptr (.ext .SetCurrentPlayingTrackChapter) _ => c.extAck req
  | .ptr (.ext .GetCurrentPlayingTrackChapterPlayStatus) _ =>
    c.respond req (.ext .ReturnCurrentPlayingTrackChapterPlayStatus) (0, 0, ())
  | .ptr (.ext .GetCurrentPlayingTrackChapterName) _ =>
    c.respond req (.ext .ReturnCurrentPlayingTrackChapterName) (stringToBytes (str "chapter"), ())
  | .ptr (.ext .GetAudiobookSpeed) _ => c.respond req (.ext .ReturnAudiobookSpeed) (0, ())
  | .ptr (.ext .SetAudiobookSpeed) _ => c.extAck req
  | .ptr (.ext .GetIndexedPlayingTrackInfo) (ty, _) =>
    c.respond req (.ext .ReturnIndexedPlayingTrackInfo) (ty, extTrackInfo ty, ())
  | .ptr (.ext .GetArtworkFormats) _ => c.respond req (.ext .RetArtworkFormats) ([], ())
  | .ptr (.ext .GetTrackArtworkData) _ => c.extFail req
  | .ptr (.ext .ResetDBSelection) _ => c.extAck req
  | .ptr (.ext .SelectDBRecord) _ => c.extAck req
  | .ptr (.ext .GetNumberCategorizedDBRecords) _ => c.respond req (.ext .ReturnNumberCategorizedDBRecords) (1, ())
  | .ptr (.ext .RetrieveCategorizedDatabaseRecords) _ =>
    c.respond req (.ext .ReturnCategorizedDatabaseRecord) (0, ⟨List.replicate 16 0, rfl⟩, ())
  | .ptr (.ext .GetPlayStatus) _ => c.respond req (.ext .ReturnPlayStatus) (300000, 20000, 0x02, ())
  | .ptr (.ext .GetCurrentPlayingTrackIndex) _ => c.respond req (.ext .ReturnCurrentPlayingTrackIndex) (0, ())
  | .ptr (.ext .GetIndexedPlayingTrackTitle) _ =>
    c.respond req (.ext .ReturnIndexedPlayingTrackTitle) (stringToBytes (str "title"), ())
  | .ptr (.ext .GetIndexedPlayingTrackArtistName) _ =>
    c.respond req (.ext .ReturnIndexedPlayingTrackArtistName) (stringToBytes (str "artist"), ())
  | .ptr (.ext .GetIndexedPlayingTrackAlbumName) _ =>
    c.respond req (.ext .ReturnIndexedPlayingTrackAlbumName) (stringToBytes (str "album"), ())
  | .ptr (.ext .SetPlayStatusChangeNotification) _ => c.extAck req
  | .ptr (.ext .SetPlayStatusChangeNotificationShort) _ => c.extAck req
  | .ptr (.ext .PlayCurrentSelection) _ => c.extAck req
  | .ptr (.ext .PlayControl) _ => c.extAck req
  | .ptr (.ext .GetTrackArtworkTimes) _ => c.respond req (.ext .RetTrackArtworkTimes) ()
  | .ptr (.ext .GetShuffle) _ => c.respond req (.ext .ReturnShuffle) (0x00, ())
  | .ptr (.ext .SetShuffle) _ => c.extAck req
  | .ptr (.ext .GetRepeat) _ => c.respond req (.ext .ReturnRepeat) (0x00, ())
  | .ptr (.ext .SetRepeat) _ => c.extAck req
  | .ptr (.ext .SetDisplayImage) _ => c.extAck req
  | .ptr (.ext .GetMonoDisplayImageLimits) _ =>
    c.respond req (.ext .ReturnMonoDisplayImageLimits) (640, 960, 0x01, ())
  | .ptr (.ext .GetNumPlayingTracks) _ => c.respond req (.ext .ReturnNumPlayingTracks) (1, ())
  | .ptr (.ext .SetCurrentPlayingTrack) _ => .ret c
  | .ptr (.ext .SelectSortDBRecord) _ => .ret c
  | .ptr (.ext .GetColorDisplayImageLimits) _ =>
    c.respond req (.ext .ReturnColorDisplayImageLimits) (640, 960, 0x01, ())
  | .ptr (.ext .ResetDBSelectionHierarchy) _ => c.extFail req
  | .ptr (.ext .GetDBiTunesInfo) _ => .ret c
  | .ptr (.ext .GetUIDTrackInfo) _ => .ret c
  | .ptr (.ext .GetDBTrackInfo) _ => .ret c
  | .ptr (.ext .GetPBTrackInfo) _ => .ret c
  | .ptr _ _ => .ret c

/-! ### Digital audio lingo -/

/-- lingo-audio/handler.go:18-20 `Start`. -/
def audioStart {σ : Type} (c : Ctx σ) : Out (Ctx σ) := c.send (.aud .GetAccSampleRateCaps) ()

/-- lingo-audio/handler.go:22-34 `HandleAudio`; it always returns nil and does not use the device. -/
def handleAudio {σ : Type} (req : Command) (c : Ctx σ) : Out (Ctx σ) :=
  match req.payload with
  | .nil => .ret c
  | .unknown _ => .ret c
  | .ptr (.aud .AccAck) _ => .ret c
  | .ptr (.aud .RetAccSampleRateCaps) _ => c.respond req (.aud .TrackNewAudioAttributes) (44100, 0, 0, ())
  | .ptr _ _ => .ret c

/-! ### cmd/ipod -/

/-- main.go:391-392: is the authentication info complete? -/
def authComplete : Payload → Bool
  | .ptr (.gen .RetDevAuthenticationInfo) (major, _, cur, max, _, _) => major ≥ 2 ∧ cur ≥ max ∨ major < 2
  | _ => false

/-- main.go:388-408 `handlePacket`. -/
def handlePacket {σ : Type} (D : Device σ) (clock : Clock) (cmd : Command) (c : Ctx σ) : Out (Ctx σ) :=
  if cmd.id.lingoID = lingoGeneralID then
    (if authComplete cmd.payload then audioStart c else .ret c) >>= fun c => handleGeneral D cmd c
  else if cmd.id.lingoID = lingoSimpleRemoteID then .ret c
  else if cmd.id.lingoID = lingoDisplayRemoteID then handleDispRemote clock cmd c
  else if cmd.id.lingoID = lingoExtRemoteID then handleExtRemote cmd c
  else if cmd.id.lingoID = lingoDigitalAudioID then handleAudio cmd c
  else .ret c

/-- main.go:363-366: the commands of a frame are handled one after another, with one output buffer. -/
def handleAll {σ : Type} (D : Device σ) (clock : Clock) : List Command → Ctx σ → Out (Ctx σ)
  | [], c => .ret c
  | cmd :: cmds, c => handlePacket D clock cmd c >>= handleAll D clock cmds

/-- cmd/ipod/general.go:15-18 `DevGeneral`. -/
structure DevGeneral where
  uimode : UInt8
  tokens : List FIDTokenValue
deriving DecidableEq, Repr

/-- main.go:386 `&DevGeneral{}`. -/
def DevGeneral.zero : DevGeneral := ⟨0, []⟩

/-- cmd/ipod/general.go:20-152: the methods of `DevGeneral`. `EndIDPS` and `AccAuthCert` only print; `AccAuthCert` hands
the certificate to the third-party pkcs7 parser, which is not modelled (assumed to return). -/
def devGeneral : Device DevGeneral where
  uiMode d := d.uimode
  setUIMode d m := { d with uimode := m }
  name _ := str "ipod-gadget"
  softwareVersion _ := (7, 1, 2)
  serialNum _ := str "abcd1234"
  lingoProtocolVersion _ lingo :=
    if lingo = lingoGeneralID then (1, 9)
    else if lingo = lingoDisplayRemoteID then (1, 5)
    else if lingo = lingoExtRemoteID then (1, 12)
    else if lingo = lingoDigitalAudioID then (1, 2)
    else (1, 1)
  lingoOptions _ lingo := if lingo = lingoGeneralID then 0x000000063DEF73FF else 0
  prefSettingID _ _ := 0
  setPrefSettingID d _ _ _ := d
  startIDPS d := { d with tokens := [] }
  endIDPS d _ := d
  setToken d t := { d with tokens := d.tokens ++ [t] }
  accAuthCert d _ := d
  setEventNotificationMask d _ := d
  eventNotificationMask _ := 0
  supportedEventNotificationMask _ := 0
  cancelCommand d _ _ _ := d
  maxPayload _ := 65535

end Ipod
