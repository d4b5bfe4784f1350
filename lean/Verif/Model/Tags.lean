import Verif.Go.Tag
import Verif.Model.Lingo

/-! The tags of the `Lingos` structs, as they are in the source, and the registration from them (lingo.go:85-113). -/

namespace Ipod
open Go

/-- lingo.go:85-88 `parseIdTag`. -/
def parseIdTag (escapes : Bytes → Option Bytes) (tag : Bytes) : Option UInt16 :=
  (parseUint16 (tagGet escapes (ascii "id") tag)).map UInt16.ofNat

/-- lingo.go:99-113 `RegisterLingos`, from the fields of the struct: tag and type. -/
def Registry.registerStruct {T : Type} [DecidableEq T] (escapes : Bytes → Option Bytes) (r : Registry T) (lingo : UInt8)
    (fields : List (Bytes × T)) : Registry T × Option Err :=
  r.registerLingos lingo (fields.map fun f => (parseIdTag escapes f.1, f.2))

/-- lingo-audio/audio.go:14-21: the fields of `Lingos`: tag and type. -/
def audFields : List (String × AudT) :=
  [("id:\"0x00\"", .AccAck),
   ("id:\"0x01\"", .iPodAck),
   ("id:\"0x02\"", .GetAccSampleRateCaps),
   ("id:\"0x03\"", .RetAccSampleRateCaps),
   ("id:\"0x04\"", .TrackNewAudioAttributes),
   ("id:\"0x05\"", .SetVideoDelay)]

/-- lingo-dispremote/dispremote.go:15-49: the fields of `Lingos`: tag and type. -/
def dispFields : List (String × DispT) :=
  [("id:\"0x00\"", .ACK),
   ("id:\"0x01\"", .GetCurrentEQProfileIndex),
   ("id:\"0x02\"", .RetCurrentEQProfileIndex),
   ("id:\"0x03\"", .SetCurrentEQProfileIndex),
   ("id:\"0x04\"", .GetNumEQProfiles),
   ("id:\"0x05\"", .RetNumEQProfiles),
   ("id:\"0x06\"", .GetIndexedEQProfileName),
   ("id:\"0x07\"", .RetIndexedEQProfileName),
   ("id:\"0x08\"", .SetRemoteEventNotification),
   ("id:\"0x09\"", .RemoteEventNotification),
   ("id:\"0x0A\"", .GetRemoteEventStatus),
   ("id:\"0x0B\"", .RetRemoteEventStatus),
   ("id:\"0x0C\"", .GetiPodStateInfo),
   ("id:\"0x0D\"", .RetiPodStateInfo),
   ("id:\"0x0E\"", .SetiPodStateInfo),
   ("id:\"0x0F\"", .GetPlayStatus),
   ("id:\"0x10\"", .RetPlayStatus),
   ("id:\"0x11\"", .SetCurrentPlayingTrack),
   ("id:\"0x12\"", .GetIndexedPlayingTrackInfo),
   ("id:\"0x13\"", .RetIndexedPlayingTrackInfo),
   ("id:\"0x14\"", .GetNumPlayingTracks),
   ("id:\"0x15\"", .RetNumPlayingTracks),
   ("id:\"0x16\"", .GetArtworkFormats),
   ("id:\"0x17\"", .RetArtworkFormats),
   ("id:\"0x18\"", .GetTrackArtworkData),
   ("id:\"0x19\"", .RetTrackArtworkData),
   ("id:\"0x1A\"", .GetPowerBatteryState),
   ("id:\"0x1B\"", .RetPowerBatteryState),
   ("id:\"0x1C\"", .GetSoundCheckState),
   ("id:\"0x1D\"", .RetSoundCheckState),
   ("id:\"0x1E\"", .SetSoundCheckState),
   ("id:\"0x1F\"", .GetTrackArtworkTimes),
   ("id:\"0x20\"", .RetTrackArtworkTimes)]

/-- lingo-extremote/extremote.go:15-80: the fields of `Lingos`: tag and type. -/
def extFields : List (String × ExtT) :=
  [("id:\"0x0001\"", .ACK),
   ("id:\"0x0002\"", .GetCurrentPlayingTrackChapterInfo),
   ("id:\"0x0003\"", .ReturnCurrentPlayingTrackChapterInfo),
   ("id:\"0x0004\"", .SetCurrentPlayingTrackChapter),
   ("id:\"0x0005\"", .GetCurrentPlayingTrackChapterPlayStatus),
   ("id:\"0x0006\"", .ReturnCurrentPlayingTrackChapterPlayStatus),
   ("id:\"0x0007\"", .GetCurrentPlayingTrackChapterName),
   ("id:\"0x0008\"", .ReturnCurrentPlayingTrackChapterName),
   ("id:\"0x0009\"", .GetAudiobookSpeed),
   ("id:\"0x000A\"", .ReturnAudiobookSpeed),
   ("id:\"0x000B\"", .SetAudiobookSpeed),
   ("id:\"0x000C\"", .GetIndexedPlayingTrackInfo),
   ("id:\"0x000D\"", .ReturnIndexedPlayingTrackInfo),
   ("id:\"0x000E\"", .GetArtworkFormats),
   ("id:\"0x000F\"", .RetArtworkFormats),
   ("id:\"0x0010\"", .GetTrackArtworkData),
   ("id:\"0x0011\"", .RetTrackArtworkData),
   ("id:\"0x0016\"", .ResetDBSelection),
   ("id:\"0x0017\"", .SelectDBRecord),
   ("id:\"0x0018\"", .GetNumberCategorizedDBRecords),
   ("id:\"0x0019\"", .ReturnNumberCategorizedDBRecords),
   ("id:\"0x001A\"", .RetrieveCategorizedDatabaseRecords),
   ("id:\"0x001B\"", .ReturnCategorizedDatabaseRecord),
   ("id:\"0x001C\"", .GetPlayStatus),
   ("id:\"0x001D\"", .ReturnPlayStatus),
   ("id:\"0x001E\"", .GetCurrentPlayingTrackIndex),
   ("id:\"0x001F\"", .ReturnCurrentPlayingTrackIndex),
   ("id:\"0x0020\"", .GetIndexedPlayingTrackTitle),
   ("id:\"0x0021\"", .ReturnIndexedPlayingTrackTitle),
   ("id:\"0x0022\"", .GetIndexedPlayingTrackArtistName),
   ("id:\"0x0023\"", .ReturnIndexedPlayingTrackArtistName),
   ("id:\"0x0024\"", .GetIndexedPlayingTrackAlbumName),
   ("id:\"0x0025\"", .ReturnIndexedPlayingTrackAlbumName),
   ("id:\"0x0026\"", .SetPlayStatusChangeNotification),
   ("id:\"0x0026\"", .SetPlayStatusChangeNotificationShort),
   ("id:\"0x0027\"", .PlayStatusChangeNotification),
   ("id:\"0x0028\"", .PlayCurrentSelection),
   ("id:\"0x0029\"", .PlayControl),
   ("id:\"0x002A\"", .GetTrackArtworkTimes),
   ("id:\"0x002B\"", .RetTrackArtworkTimes),
   ("id:\"0x002C\"", .GetShuffle),
   ("id:\"0x002D\"", .ReturnShuffle),
   ("id:\"0x002E\"", .SetShuffle),
   ("id:\"0x002F\"", .GetRepeat),
   ("id:\"0x0030\"", .ReturnRepeat),
   ("id:\"0x0031\"", .SetRepeat),
   ("id:\"0x0032\"", .SetDisplayImage),
   ("id:\"0x0033\"", .GetMonoDisplayImageLimits),
   ("id:\"0x0034\"", .ReturnMonoDisplayImageLimits),
   ("id:\"0x0035\"", .GetNumPlayingTracks),
   ("id:\"0x0036\"", .ReturnNumPlayingTracks),
   ("id:\"0x0037\"", .SetCurrentPlayingTrack),
   ("id:\"0x0038\"", .SelectSortDBRecord),
   ("id:\"0x0039\"", .GetColorDisplayImageLimits),
   ("id:\"0x003A\"", .ReturnColorDisplayImageLimits),
   ("id:\"0x003B\"", .ResetDBSelectionHierarchy),
   ("id:\"0x003C\"", .GetDBiTunesInfo),
   ("id:\"0x003D\"", .RetDBiTunesInfo),
   ("id:\"0x003E\"", .GetUIDTrackInfo),
   ("id:\"0x003F\"", .RetUIDTrackInfo),
   ("id:\"0x0040\"", .GetDBTrackInfo),
   ("id:\"0x0041\"", .RetDBTrackInfo),
   ("id:\"0x0042\"", .GetPBTrackInfo),
   ("id:\"0x0043\"", .RetPBTrackInfo)]

/-- lingo-general/general.go:19-95: the fields of `Lingos`: tag and type. -/
def genFields : List (String × GenT) :=
  [("id:\"0x00\"", .RequestIdentify),
   ("id:\"0x02\"", .ACK),
   ("id:\"0x02\"", .ACKPending),
   ("id:\"0x02\"", .ACKDataDropped),
   ("id:\"0x03\"", .RequestRemoteUIMode),
   ("id:\"0x04\"", .ReturnRemoteUIMode),
   ("id:\"0x05\"", .EnterRemoteUIMode),
   ("id:\"0x06\"", .ExitRemoteUIMode),
   ("id:\"0x07\"", .RequestiPodName),
   ("id:\"0x08\"", .ReturniPodName),
   ("id:\"0x09\"", .RequestiPodSoftwareVersion),
   ("id:\"0x0A\"", .ReturniPodSoftwareVersion),
   ("id:\"0x0B\"", .RequestiPodSerialNum),
   ("id:\"0x0C\"", .ReturniPodSerialNum),
   ("id:\"0x0D\"", .RequestiPodModelNum),
   ("id:\"0x0E\"", .ReturniPodModelNum),
   ("id:\"0x0F\"", .RequestLingoProtocolVersion),
   ("id:\"0x10\"", .ReturnLingoProtocolVersion),
   ("id:\"0x11\"", .RequestTransportMaxPayloadSize),
   ("id:\"0x12\"", .ReturnTransportMaxPayloadSize),
   ("id:\"0x13\"", .IdentifyDeviceLingoes),
   ("id:\"0x14\"", .GetDevAuthenticationInfo),
   ("id:\"0x15\"", .RetDevAuthenticationInfo),
   ("id:\"0x16\"", .AckDevAuthenticationInfo),
   ("id:\"0x17\"", .GetDevAuthenticationSignatureV1),
   ("id:\"0x17\"", .GetDevAuthenticationSignatureV2),
   ("id:\"0x18\"", .RetDevAuthenticationSignature),
   ("id:\"0x19\"", .AckDevAuthenticationStatus),
   ("id:\"0x1A\"", .GetiPodAuthenticationInfo),
   ("id:\"0x1B\"", .RetiPodAuthenticationInfo),
   ("id:\"0x1C\"", .AckiPodAuthenticationInfo),
   ("id:\"0x1D\"", .GetiPodAuthenticationSignature),
   ("id:\"0x1E\"", .RetiPodAuthenticationSignature),
   ("id:\"0x1F\"", .AckiPodAuthenticationStatus),
   ("id:\"0x23\"", .NotifyiPodStateChange),
   ("id:\"0x24\"", .GetiPodOptions),
   ("id:\"0x25\"", .RetiPodOptions),
   ("id:\"0x27\"", .GetAccessoryInfo),
   ("id:\"0x28\"", .RetAccessoryInfo),
   ("id:\"0x29\"", .GetiPodPreferences),
   ("id:\"0x2A\"", .RetiPodPreferences),
   ("id:\"0x2B\"", .SetiPodPreferences),
   ("id:\"0x35\"", .GetUIMode),
   ("id:\"0x36\"", .RetUIMode),
   ("id:\"0x37\"", .SetUIMode),
   ("id:\"0x38\"", .StartIDPS),
   ("id:\"0x39\"", .SetFIDTokenValues),
   ("id:\"0x3A\"", .RetFIDTokenValueACKs),
   ("id:\"0x3B\"", .EndIDPS),
   ("id:\"0x3C\"", .IDPSStatus),
   ("id:\"0x3F\"", .OpenDataSessionForProtocol),
   ("id:\"0x40\"", .CloseDataSession),
   ("id:\"0x41\"", .DevACK),
   ("id:\"0x42\"", .DevDataTransfer),
   ("id:\"0x43\"", .IPodDataTransfer),
   ("id:\"0x46\"", .SetAccStatusNotification),
   ("id:\"0x47\"", .RetAccStatusNotification),
   ("id:\"0x48\"", .AccessoryStatusNotification),
   ("id:\"0x49\"", .SetEventNotification),
   ("id:\"0x4A\"", .IPodNotification),
   ("id:\"0x4B\"", .GetiPodOptionsForLingo),
   ("id:\"0x4C\"", .RetiPodOptionsForLingo),
   ("id:\"0x4D\"", .GetEventNotification),
   ("id:\"0x4E\"", .RetEventNotification),
   ("id:\"0x4F\"", .GetSupportedEventNotification),
   ("id:\"0x50\"", .CancelCommand),
   ("id:\"0x51\"", .RetSupportedEventNotification),
   ("id:\"0x54\"", .SetAvailableCurrent),
   ("id:\"0x64\"", .RequestApplicationLaunch),
   ("id:\"0x65\"", .GetNowPlayingFocusApp),
   ("id:\"0x66\"", .RetNowPlayingFocusApp)]

/-- lingo-simpleremote/simpleremote.go:16-38: the fields of `Lingos`: tag and type. -/
def simFields : List (String × SimT) :=
  [("id:\"0x00\"", .ContextButtonStatus),
   ("id:\"0x01\"", .ACK),
   ("id:\"0x03\"", .VideoButtonStatus),
   ("id:\"0x04\"", .AudioButtonStatus),
   ("id:\"0x0B\"", .iPodOutButtonStatus),
   ("id:\"0x0C\"", .RotationInputStatus),
   ("id:\"0x0D\"", .RadioButtonStatus),
   ("id:\"0x0E\"", .CameraButtonStatus),
   ("id:\"0x0F\"", .RegisterDescriptor),
   ("id:\"0x10\"", .SendHIDReportToiPod),
   ("id:\"0x11\"", .SendHIDReportToAcc),
   ("id:\"0x12\"", .UnregisterDescriptor),
   ("id:\"0x13\"", .AccessibilityEvent),
   ("id:\"0x14\"", .GetAccessibilityParameter),
   ("id:\"0x15\"", .RetAccessibilityParameter),
   ("id:\"0x16\"", .SetAccessibilityParameter),
   ("id:\"0x17\"", .GetCurrentItemProperty),
   ("id:\"0x18\"", .RetCurrentItemProperty),
   ("id:\"0x19\"", .SetContext),
   ("id:\"0x1A\"", .AccParameterChanged),
   ("id:\"0x81\"", .DevACK)]

/-- The `init` functions of the five packages, as `registry`, from the structs of the source; the errors are dropped.
See lingo.go:85-113. -/
def registryFromTags (escapes : Bytes → Option Bytes) : Registry TypeId :=
  let fields {X : Type} (l : List (String × X)) (c : X → TypeId) : List (Bytes × TypeId) := l.map fun f => (ascii f.1, c f.2)
  let r := Registry.empty
  let r := (r.registerStruct escapes lingoDigitalAudioID (fields audFields .aud)).1
  let r := (r.registerStruct escapes lingoDisplayRemoteID (fields dispFields .disp)).1
  let r := (r.registerStruct escapes lingoExtRemoteID (fields extFields .ext)).1
  let r := (r.registerStruct escapes lingoGeneralID (fields genFields .gen)).1
  (r.registerStruct escapes lingoSimpleRemoteID (fields simFields .sim)).1

end Ipod
