import Verif.Model.Handlers
import Verif.Go.Format

/-!
# The handlers with any device and any writer

`Model/Handlers.lean` takes the device to be a record of functions whose questions have no effect, and the writer to be the
`CmdBuffer` of cmd/ipod. But `HandleGeneral`, `HandleDispRemote`, `HandleExtRemote`, `HandleAudio` and `Start` are exported
functions: a caller brings a device and a writer of their own, whose methods may do anything, answer differently each time,
fail, panic, or never return. Here a handler is what it is to such a caller: a program that makes calls, one after another,
each depending on the results of the earlier ones. The variables of the packages (`accCertBuf`, `trxCounter`) and the clock
are reached by calls too, so that nothing is assumed about who else uses them.
-/

namespace Ipod.Effects
open Go

/-- The calls a handler can make: the methods of `DeviceGeneral` (lingo-general/handler.go:9-34) and of `DeviceExtRemote`
(lingo-extremote/handler.go:7-9), `WriteCommand` (cmd.go:23-25), `time.Now` (lingo-dispremote/handler.go:75; its result
after the conversions of lines 77-81), `TrxReset` and `TrxNext` (cmd.go:189-195), and `Reset`, `Write`, `Bytes` of the
package variable `accCertBuf` (lingo-general/handler.go:91). -/
inductive Call where
  | uiMode
  | setUIMode (mode : UInt8)
  | name
  | softwareVersion
  | serialNum
  | lingoProtocolVersion (lingo : UInt8)
  | lingoOptions (lingo : UInt8)
  | prefSettingID (classID : UInt8)
  | setPrefSettingID (classID settingID : UInt8) (restoreOnExit : Bool)
  | startIDPS
  | endIDPS (status : UInt8)
  | setToken (token : FIDTokenValue)
  | accAuthCert (cert : Bytes)
  | setEventNotificationMask (mask : UInt64)
  | eventNotificationMask
  | supportedEventNotificationMask
  | cancelCommand (lingo : UInt8) (cmd : UInt16) (transaction : UInt16)
  | maxPayload
  | playbackStatus
  | writeCommand (cmd : Command)
  | now
  | trxReset
  | trxNext
  | certReset
  | certWrite (data : Bytes)
  | certBytes
deriving DecidableEq

/-- The results of the calls; an `error` is `Option Err`. See lingo-general/handler.go:9-34, cmd.go:23-25,177-204. -/
@[reducible] def Call.Res : Call → Type
  | .uiMode => UInt8
  | .name => Bytes
  | .softwareVersion => UInt8 × UInt8 × UInt8
  | .serialNum => Bytes
  | .lingoProtocolVersion _ => UInt8 × UInt8
  | .lingoOptions _ => UInt64
  | .prefSettingID _ => UInt8
  | .setToken _ => Option Err
  | .eventNotificationMask => UInt64
  | .supportedEventNotificationMask => UInt64
  | .maxPayload => UInt16
  | .playbackStatus => UInt32 × UInt32 × UInt8
  | .writeCommand _ => Option Err
  | .now => Time
  | .trxNext => UInt16
  | .certBytes => Bytes
  | _ => Unit

/-- A program making calls. See lingo-general/handler.go:93-278. -/
inductive Prog (α : Type) where
  | ret (a : α)
  | call (c : Call) (k : c.Res → Prog α)

/-- One after the other. See lingo-general/handler.go:93-278. -/
def Prog.bind {α β : Type} : Prog α → (α → Prog β) → Prog β
  | .ret a, f => f a
  | .call c k, f => .call c fun r => (k r).bind f

/-- A call alone. See lingo-general/handler.go:93-278. -/
def Prog.ask (c : Call) : Prog c.Res := .call c .ret

/-- A call that has come back, with its result; or one that has not (`none`): it panicked, or waits for ever.
See lingo-general/handler.go:93-278. -/
structure Event where
  call : Call
  res : Option call.Res

/-- Everything the handler calls: what a call does may depend on all that happened before; `none`: it does not come
back. See lingo-general/handler.go:9-34, cmd.go:23-25. -/
abbrev World := List Event → (c : Call) → Option c.Res

/-- Running a program: the calls made, in order, and the result, if there is one. See lingo-general/handler.go:93-278. -/
def Prog.run {α : Type} (w : World) : Prog α → List Event → List Event × Option α
  | .ret a, h => (h, some a)
  | .call c k, h =>
    match w h c with
    | none => (h ++ [⟨c, none⟩], none)
    | some r => (k r).run w (h ++ [⟨c, some r⟩])

/-- cmd.go:177-185 `Respond` with a pointer to a message (`BuildCommand` does not panic then, see `buildCommand`). The
result of `WriteCommand` is dropped (line 184). -/
def respond (req : Command) (t : TypeId) (v : t.Val) : Prog Unit :=
  match registry.lookupID t with
  | none => .ret ()
  | some id => .call (.writeCommand ⟨id, req.trx, .ptr t v⟩) fun _ => .ret ()

/-- cmd.go:197-204 `Send` with a pointer to a message. -/
def send (t : TypeId) (v : t.Val) : Prog Unit :=
  match registry.lookupID t with
  | none => .ret ()
  | some id => .call .trxNext fun n => .call (.writeCommand ⟨id, some n, .ptr t v⟩) fun _ => .ret ()

/-- lingo-general/handler.go:36-38 `ackSuccess` with `Respond`. -/
def ackSuccess (req : Command) : Prog Unit := respond req (.gen .ACK) (ackStatusSuccess, req.id.cmdID.toUInt8, ())

/-- lingo-general/handler.go:40-42 `ackPending` with `Respond`. -/
def ackPending (req : Command) (maxWait : UInt32) : Prog Unit :=
  respond req (.gen .ACKPending) (ackStatusPending, req.id.cmdID.toUInt8, maxWait, ())

/-- lingo-general/handler.go:44-46 `ack` with `Respond`. -/
def ack (req : Command) (status : UInt8) : Prog Unit := respond req (.gen .ACK) (status, req.id.cmdID.toUInt8, ())

/-- lingo-general/handler.go:215-217: the loop over the tokens; the error of `SetToken` is dropped. Simplified: the device is
given the tokens, not the memory they are in (a device that writes through the pointers in them would change what is
acknowledged). -/
def setTokens : List FIDTokenValue → Prog Unit
  | [] => .ret ()
  | t :: ts => .call (.setToken t) fun _ => setTokens ts

/-- lingo-general/handler.go:93-278 `HandleGeneral`, which always returns nil. -/
def handleGeneral (req : Command) : Prog Unit :=
  match req.payload with
  | .nil => .ret ()
  | .unknown _ => ack req ackStatusUnknownID
  | .ptr (.gen .RequestRemoteUIMode) _ =>
    .call .uiMode fun (m : UInt8) => respond req (.gen .ReturnRemoteUIMode) (boolToByte (m = uiModeExtended), ())
  | .ptr (.gen .EnterRemoteUIMode) _ =>
    .call .uiMode fun (m : UInt8) =>
    if m = uiModeExtended then ackSuccess req
    else
      (ackPending req 300).bind fun _ =>
      .call (.setUIMode uiModeExtended) fun _ =>
      ackSuccess req
  | .ptr (.gen .ExitRemoteUIMode) _ =>
    .call .uiMode fun (m : UInt8) =>
    if m ≠ uiModeExtended then ackSuccess req
    else
      (ackPending req 300).bind fun _ =>
      .call (.setUIMode uiModeStandart) fun _ =>
      ackSuccess req
  | .ptr (.gen .RequestiPodName) _ =>
    .call .name fun s => respond req (.gen .ReturniPodName) (stringToBytes s, ())
  | .ptr (.gen .RequestiPodSoftwareVersion) _ =>
    .call .softwareVersion fun (major, minor, rev) => respond req (.gen .ReturniPodSoftwareVersion) (major, minor, rev, ())
  | .ptr (.gen .RequestiPodSerialNum) _ =>
    .call .serialNum fun s => respond req (.gen .ReturniPodSerialNum) (stringToBytes s, ())
  | .ptr (.gen .RequestiPodModelNum) _ =>
    respond req (.gen .ReturniPodModelNum) (0x00111349, stringToBytes (str "MC676"), ())
  | .ptr (.gen .RequestLingoProtocolVersion) (lingo, _) =>
    .call (.lingoProtocolVersion lingo) fun (major, minor) =>
    respond req (.gen .ReturnLingoProtocolVersion) (lingo, major, minor, ())
  | .ptr (.gen .RequestTransportMaxPayloadSize) _ =>
    .call .maxPayload fun n => respond req (.gen .ReturnTransportMaxPayloadSize) (n, ())
  | .ptr (.gen .IdentifyDeviceLingoes) (_, _, deviceID, _) =>
    (ackSuccess req).bind fun _ =>
    if deviceID ≠ 0x00 then respond req (.gen .GetDevAuthenticationInfo) () else .ret ()
  | .ptr (.gen .RetDevAuthenticationInfo) (major, _, cur, max, data, _) =>
    if major ≥ 2 then
      (if cur = 0 then Prog.call .certReset fun _ => .ret () else .ret ()).bind fun _ =>
      .call (.certWrite data) fun _ =>
      if cur < max then ackSuccess req
      else
        (respond req (.gen .AckDevAuthenticationInfo) (0x00, ())).bind fun _ =>
        .call .certBytes fun cert =>
        .call (.accAuthCert cert) fun _ =>
        respond req (.gen .GetDevAuthenticationSignatureV2) (⟨List.replicate 20 0, rfl⟩, 0, ())
    else respond req (.gen .AckDevAuthenticationInfo) (0x00, ())
  | .ptr (.gen .RetDevAuthenticationSignature) _ => respond req (.gen .AckDevAuthenticationStatus) (0x00, ())
  | .ptr (.gen .GetiPodAuthenticationInfo) _ => respond req (.gen .RetiPodAuthenticationInfo) (1, 1, 0, 0, [], ())
  | .ptr (.gen .AckiPodAuthenticationInfo) _ => .ret ()
  | .ptr (.gen .GetiPodAuthenticationSignature) (challenge, _) =>
    respond req (.gen .RetiPodAuthenticationSignature) (challenge, ())
  | .ptr (.gen .AckiPodAuthenticationStatus) _ => .ret ()
  | .ptr (.gen .GetiPodOptions) _ => respond req (.gen .RetiPodOptions) (0x00, ())
  | .ptr (.gen .RetAccessoryInfo) _ => .ret ()
  | .ptr (.gen .GetiPodPreferences) (cls, _) =>
    .call (.prefSettingID cls) fun s => respond req (.gen .RetiPodPreferences) (cls, s, ())
  | .ptr (.gen .SetiPodPreferences) (cls, setting, restore, _) =>
    .call (.setPrefSettingID cls setting (byteToBool restore)) fun _ => ackSuccess req
  | .ptr (.gen .GetUIMode) _ => .call .uiMode fun m => respond req (.gen .RetUIMode) (m, ())
  | .ptr (.gen .SetUIMode) _ => ackSuccess req
  | .ptr (.gen .StartIDPS) _ =>
    .call .trxReset fun _ => .call .startIDPS fun _ => ackSuccess req
  | .ptr (.gen .SetFIDTokenValues) (tokens, _) =>
    (setTokens tokens).bind fun _ => respond req (.gen .RetFIDTokenValueACKs) (ackFIDTokenValues tokens, ())
  | .ptr (.gen .EndIDPS) (status, _) =>
    .call (.endIDPS status) fun _ =>
    if status = 0x00 then
      (respond req (.gen .IDPSStatus) (0x00, ())).bind fun _ => send (.gen .GetDevAuthenticationInfo) ()
    else if status = 0x01 then respond req (.gen .IDPSStatus) (0x04, ())
    else if status = 0x02 then respond req (.gen .IDPSStatus) (0x06, ())
    else .ret ()
  | .ptr (.gen .AccessoryStatusNotification) _ => .ret ()
  | .ptr (.gen .SetEventNotification) (mask, _) =>
    .call (.setEventNotificationMask mask) fun _ => ackSuccess req
  | .ptr (.gen .GetiPodOptionsForLingo) (lingo, _) =>
    .call (.lingoOptions lingo) fun o => respond req (.gen .RetiPodOptionsForLingo) (lingo, o, ())
  | .ptr (.gen .GetEventNotification) _ =>
    .call .eventNotificationMask fun m => respond req (.gen .RetEventNotification) (m, ())
  | .ptr (.gen .GetSupportedEventNotification) _ =>
    .call .supportedEventNotificationMask fun m => respond req (.gen .RetSupportedEventNotification) (m, ())
  | .ptr (.gen .CancelCommand) (lingo, cmd, trx, _) =>
    .call (.cancelCommand lingo cmd trx) fun _ => ackSuccess req
  | .ptr (.gen .SetAvailableCurrent) _ => .ret ()
  | .ptr (.gen .RequestApplicationLaunch) _ => ack req ackStatusFailed
  | .ptr (.gen .GetNowPlayingFocusApp) _ => respond req (.gen .RetNowPlayingFocusApp) (stringToBytes [], ())
  | .ptr _ _ => .ret ()

/-- lingo-dispremote/handler.go:100, 163: `errors.New("unknown info type")`. -/
def unknownInfoText : Bytes := ascii "unknown info type"

/-- lingo-dispremote/handler.go:13-15 `ackSuccess` with `Respond`. -/
def dispAck (req : Command) : Prog Unit := respond req (.disp .ACK) (0x00, req.id.cmdID.toUInt8, ())

/-- lingo-dispremote/handler.go:193: `return nil` behind the `switch`. -/
def done (p : Prog Unit) : Prog (Option Bytes) := p.bind fun _ => .ret none

/-- lingo-dispremote/handler.go:44-103: `GetiPodStateInfo`. The time is asked for at line 75, for type 9 only. -/
def dispState (req : Command) (ty : UInt8) : Prog (Option Bytes) :=
  if ty = 9 then
    .call .now fun (d : Time) =>
    done (respond req (.disp .RetiPodStateInfo) (ty, .dateTime d.year d.month d.day d.hour d.minute, ()))
  else
    match dispStateInfo ty ⟨0, 0, 0, 0, 0⟩ with
    | none => .ret (some unknownInfoText)
    | some info => done (respond req (.disp .RetiPodStateInfo) (ty, info, ()))

/-- lingo-dispremote/handler.go:115-166: `GetIndexedPlayingTrackInfo`. -/
def dispTrack (req : Command) (ty : UInt8) : Prog (Option Bytes) :=
  match dispTrackInfo ty with
  | none => .ret (some unknownInfoText)
  | some info => done (respond req (.disp .RetIndexedPlayingTrackInfo) (ty, info, ()))

/-- lingo-dispremote/handler.go:17-194 `HandleDispRemote`: the text of its error, if any. -/
def handleDispRemote (req : Command) : Prog (Option Bytes) :=
  match req.payload with
  | .nil => .ret none
  | .unknown _ => .ret none
  | .ptr (.disp .GetCurrentEQProfileIndex) _ => done (respond req (.disp .RetCurrentEQProfileIndex) (0, ()))
  | .ptr (.disp .SetCurrentEQProfileIndex) _ => done (dispAck req)
  | .ptr (.disp .GetNumEQProfiles) _ => done (respond req (.disp .RetNumEQProfiles) (1, ()))
  | .ptr (.disp .GetIndexedEQProfileName) _ =>
    done (respond req (.disp .RetIndexedEQProfileName) (stringToBytes (str "Default"), ()))
  | .ptr (.disp .SetRemoteEventNotification) _ => done (dispAck req)
  | .ptr (.disp .GetRemoteEventStatus) _ => done (respond req (.disp .RetRemoteEventStatus) (0, ()))
  | .ptr (.disp .GetiPodStateInfo) (ty, _) => dispState req ty
  | .ptr (.disp .SetiPodStateInfo) _ => done (dispAck req)
  | .ptr (.disp .GetPlayStatus) _ => done (respond req (.disp .RetPlayStatus) (0, 0, 0, 0, ()))
  | .ptr (.disp .SetCurrentPlayingTrack) _ => done (dispAck req)
  | .ptr (.disp .GetIndexedPlayingTrackInfo) (ty, _) => dispTrack req ty
  | .ptr (.disp .GetNumPlayingTracks) _ => done (respond req (.disp .RetNumPlayingTracks) (0, ()))
  | .ptr (.disp .GetArtworkFormats) _ => done (respond req (.disp .RetArtworkFormats) ([], ()))
  | .ptr (.disp .GetTrackArtworkData) _ => .ret none
  | .ptr (.disp .GetPowerBatteryState) _ => done (respond req (.disp .RetPowerBatteryState) (0x01, 255, ()))
  | .ptr (.disp .GetSoundCheckState) _ => done (respond req (.disp .RetSoundCheckState) (false, ()))
  | .ptr (.disp .SetSoundCheckState) _ => done (dispAck req)
  | .ptr (.disp .GetTrackArtworkTimes) _ => done (respond req (.disp .RetTrackArtworkTimes) ([], ()))
  | .ptr _ _ => .ret none

/-- lingo-extremote/handler.go:11-13 `ackSuccess` with `Respond`. -/
def extAck (req : Command) : Prog Unit := respond req (.ext .ACK) (0x00, req.id.cmdID, ())

/-- lingo-extremote/handler.go:72-76, 150: `ACKStatusFailed`. -/
def extFail (req : Command) : Prog Unit := respond req (.ext .ACK) (0x02, req.id.cmdID, ())

/-- lingo-extremote/handler.go:19-165 `HandleExtRemote`, which always returns nil. -/
def handleExtRemote (req : Command) : Prog Unit :=
  match req.payload with
  | .nil => .ret ()
  | .unknown _ => .ret ()
  | .ptr (.ext .GetCurrentPlayingTrackChapterInfo) _ =>
    respond req (.ext .ReturnCurrentPlayingTrackChapterInfo) (0, 1, ())
  | .ptr (.ext .SetCurrentPlayingTrackChapter) _ => extAck req
  | .ptr (.ext .GetCurrentPlayingTrackChapterPlayStatus) _ =>
    respond req (.ext .ReturnCurrentPlayingTrackChapterPlayStatus) (0, 0, ())
  | .ptr (.ext .GetCurrentPlayingTrackChapterName) _ =>
    respond req (.ext .ReturnCurrentPlayingTrackChapterName) (stringToBytes (str "chapter"), ())
  | .ptr (.ext .GetAudiobookSpeed) _ => respond req (.ext .ReturnAudiobookSpeed) (0, ())
  | .ptr (.ext .SetAudiobookSpeed) _ => extAck req
  | .ptr (.ext .GetIndexedPlayingTrackInfo) (ty, _) =>
    respond req (.ext .ReturnIndexedPlayingTrackInfo) (ty, extTrackInfo ty, ())
  | .ptr (.ext .GetArtworkFormats) _ => respond req (.ext .RetArtworkFormats) ([], ())
  | .ptr (.ext .GetTrackArtworkData) _ => extFail req
  | .ptr (.ext .ResetDBSelection) _ => extAck req
  | .ptr (.ext .SelectDBRecord) _ => extAck req
  | .ptr (.ext .GetNumberCategorizedDBRecords) _ => respond req (.ext .ReturnNumberCategorizedDBRecords) (1, ())
  | .ptr (.ext .RetrieveCategorizedDatabaseRecords) _ =>
    respond req (.ext .ReturnCategorizedDatabaseRecord) (0, ⟨List.replicate 16 0, rfl⟩, ())
  | .ptr (.ext .GetPlayStatus) _ => respond req (.ext .ReturnPlayStatus) (300000, 20000, 0x02, ())
  | .ptr (.ext .GetCurrentPlayingTrackIndex) _ => respond req (.ext .ReturnCurrentPlayingTrackIndex) (0, ())
  | .ptr (.ext .GetIndexedPlayingTrackTitle) _ =>
    respond req (.ext .ReturnIndexedPlayingTrackTitle) (stringToBytes (str "title"), ())
  | .ptr (.ext .GetIndexedPlayingTrackArtistName) _ =>
    respond req (.ext .ReturnIndexedPlayingTrackArtistName) (stringToBytes (str "artist"), ())
  | .ptr (.ext .GetIndexedPlayingTrackAlbumName) _ =>
    respond req (.ext .ReturnIndexedPlayingTrackAlbumName) (stringToBytes (str "album"), ())
  | .ptr (.ext .SetPlayStatusChangeNotification) _ => extAck req
  | .ptr (.ext .SetPlayStatusChangeNotificationShort) _ => extAck req
  | .ptr (.ext .PlayCurrentSelection) _ => extAck req
  | .ptr (.ext .PlayControl) _ => extAck req
  | .ptr (.ext .GetTrackArtworkTimes) _ => respond req (.ext .RetTrackArtworkTimes) ()
  | .ptr (.ext .GetShuffle) _ => respond req (.ext .ReturnShuffle) (0x00, ())
  | .ptr (.ext .SetShuffle) _ => extAck req
  | .ptr (.ext .GetRepeat) _ => respond req (.ext .ReturnRepeat) (0x00, ())
  | .ptr (.ext .SetRepeat) _ => extAck req
  | .ptr (.ext .SetDisplayImage) _ => extAck req
  | .ptr (.ext .GetMonoDisplayImageLimits) _ => respond req (.ext .ReturnMonoDisplayImageLimits) (640, 960, 0x01, ())
  | .ptr (.ext .GetNumPlayingTracks) _ => respond req (.ext .ReturnNumPlayingTracks) (1, ())
  | .ptr (.ext .SetCurrentPlayingTrack) _ => .ret ()
  | .ptr (.ext .SelectSortDBRecord) _ => .ret ()
  | .ptr (.ext .GetColorDisplayImageLimits) _ => respond req (.ext .ReturnColorDisplayImageLimits) (640, 960, 0x01, ())
  | .ptr (.ext .ResetDBSelectionHierarchy) _ => extFail req
  | .ptr (.ext .GetDBiTunesInfo) _ => .ret ()
  | .ptr (.ext .GetUIDTrackInfo) _ => .ret ()
  | .ptr (.ext .GetDBTrackInfo) _ => .ret ()
  | .ptr (.ext .GetPBTrackInfo) _ => .ret ()
  | .ptr _ _ => .ret ()

/-- lingo-audio/handler.go:18-20 `Start`. -/
def audioStart : Prog Unit := send (.aud .GetAccSampleRateCaps) ()

/-- lingo-audio/handler.go:22-34 `HandleAudio`, which always returns nil. -/
def handleAudio (req : Command) : Prog Unit :=
  match req.payload with
  | .nil => .ret ()
  | .unknown _ => .ret ()
  | .ptr (.aud .AccAck) _ => .ret ()
  | .ptr (.aud .RetAccSampleRateCaps) _ => respond req (.aud .TrackNewAudioAttributes) (44100, 0, 0, ())
  | .ptr _ _ => .ret ()

/-- cmd/ipod/main.go:388-408 `handlePacket` (the error of `HandleDispRemote` is dropped). -/
def handlePacket (cmd : Command) : Prog Unit :=
  if cmd.id.lingoID = lingoGeneralID then
    (if authComplete cmd.payload then audioStart else .ret ()).bind fun _ => handleGeneral cmd
  else if cmd.id.lingoID = lingoSimpleRemoteID then .ret ()
  else if cmd.id.lingoID = lingoDisplayRemoteID then (handleDispRemote cmd).bind fun _ => .ret ()
  else if cmd.id.lingoID = lingoExtRemoteID then handleExtRemote cmd
  else if cmd.id.lingoID = lingoDigitalAudioID then handleAudio cmd
  else .ret ()

end Ipod.Effects
