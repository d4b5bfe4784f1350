import Verif.Spec.Layout

/-!
# Specification of the wire protocol: ids, names and layouts of all messages

Written from the declarations of the five lingo packages: which message goes under which number, and of which fields
its body consists. Reading a body by a layout is defined here without the decoder.
-/

namespace Spec
open Go Ipod

/-- A field on the wire: a number of `n` bytes, big endian; the same in two's complement; one byte, zero or not; `n` bytes as they are. -/
inductive WireField where
  | num (n : Nat)
  | int (n : Nat)
  | flag
  | raw (n : Nat)
deriving DecidableEq

def WireField.width : WireField → Nat
  | .num n | .int n | .raw n => n
  | .flag => 1

/-- What a field says. -/
inductive FieldValue where
  | num (v : Int)
  | flag (v : Bool)
  | raw (v : Bytes)
deriving DecidableEq

def WireField.read : WireField → Bytes → FieldValue
  | .num _, b => .num (beVal b)
  | .int n, b => .num (if 2 * beVal b < 256 ^ n then (beVal b : Int) else (beVal b : Int) - (256 ^ n : Nat))
  | .flag, b => .flag (decide (b ≠ [0x00]))
  | .raw _, b => .raw b

/-- The fields of a body, one after another. -/
def readFields : List WireField → Bytes → List FieldValue
  | [], _ => []
  | f :: fs, b => f.read (b.take f.width) :: readFields fs (b.drop f.width)

def wireSize (fs : List WireField) : Nat := (fs.map WireField.width).sum

/-- What the fields of a Go struct say (none of them is a slice or an interface). -/
def fieldValues : (fs : List FTy) → SVal fs → List FieldValue
  | [], _ => []
  | .u8 :: fs, (v, vs) => .num v.toNat :: fieldValues fs vs
  | .u16 :: fs, (v, vs) => .num v.toNat :: fieldValues fs vs
  | .u32 :: fs, (v, vs) => .num v.toNat :: fieldValues fs vs
  | .u64 :: fs, (v, vs) => .num v.toNat :: fieldValues fs vs
  | .i16 :: fs, (v, vs) => .num v.toInt :: fieldValues fs vs
  | .i32 :: fs, (v, vs) => .num v.toInt :: fieldValues fs vs
  | .bool :: fs, (v, vs) => .flag v :: fieldValues fs vs
  | .arr _ :: fs, (v, vs) => .raw v.1 :: fieldValues fs vs
  | _ :: fs, (_, vs) => fieldValues fs vs

/-- A message: its lingo, its command, its name, and its fields (`none` if the length of its body is not fixed). -/
structure WireRow where
  lingo : UInt8
  cmd : UInt16
  name : String
  fields : Option (List WireField)
deriving DecidableEq

/-- All messages, in the order of their registration. -/
def wireTable : List WireRow := [
  -- lingo-audio
  ⟨0x0A, 0x00, "audio.AccAck", some [.num 1, .num 1]⟩,
  ⟨0x0A, 0x01, "audio.iPodAck", some [.num 1, .num 1]⟩,
  ⟨0x0A, 0x02, "audio.GetAccSampleRateCaps", some []⟩,
  ⟨0x0A, 0x03, "audio.RetAccSampleRateCaps", none⟩,
  ⟨0x0A, 0x04, "audio.TrackNewAudioAttributes", some [.num 4, .num 4, .num 4]⟩,
  ⟨0x0A, 0x05, "audio.SetVideoDelay", some [.num 4]⟩,
  -- lingo-dispremote
  ⟨0x03, 0x00, "dispremote.ACK", some [.num 1, .num 1]⟩,
  ⟨0x03, 0x01, "dispremote.GetCurrentEQProfileIndex", some []⟩,
  ⟨0x03, 0x02, "dispremote.RetCurrentEQProfileIndex", some [.num 4]⟩,
  ⟨0x03, 0x03, "dispremote.SetCurrentEQProfileIndex", some [.num 4, .flag]⟩,
  ⟨0x03, 0x04, "dispremote.GetNumEQProfiles", some []⟩,
  ⟨0x03, 0x05, "dispremote.RetNumEQProfiles", some [.num 4]⟩,
  ⟨0x03, 0x06, "dispremote.GetIndexedEQProfileName", some [.num 4]⟩,
  ⟨0x03, 0x07, "dispremote.RetIndexedEQProfileName", none⟩,
  ⟨0x03, 0x08, "dispremote.SetRemoteEventNotification", some [.num 4]⟩,
  ⟨0x03, 0x09, "dispremote.RemoteEventNotification", none⟩,
  ⟨0x03, 0x0A, "dispremote.GetRemoteEventStatus", some []⟩,
  ⟨0x03, 0x0B, "dispremote.RetRemoteEventStatus", some [.num 4]⟩,
  ⟨0x03, 0x0C, "dispremote.GetiPodStateInfo", some [.num 1]⟩,
  ⟨0x03, 0x0D, "dispremote.RetiPodStateInfo", none⟩,
  ⟨0x03, 0x0E, "dispremote.SetiPodStateInfo", some [.num 1, .num 1]⟩,
  ⟨0x03, 0x0F, "dispremote.GetPlayStatus", some []⟩,
  ⟨0x03, 0x10, "dispremote.RetPlayStatus", some [.num 1, .num 4, .num 4, .num 4]⟩,
  ⟨0x03, 0x11, "dispremote.SetCurrentPlayingTrack", some [.num 4]⟩,
  ⟨0x03, 0x12, "dispremote.GetIndexedPlayingTrackInfo", some [.num 1, .num 4, .num 2]⟩,
  ⟨0x03, 0x13, "dispremote.RetIndexedPlayingTrackInfo", none⟩,
  ⟨0x03, 0x14, "dispremote.GetNumPlayingTracks", some []⟩,
  ⟨0x03, 0x15, "dispremote.RetNumPlayingTracks", some [.num 4]⟩,
  ⟨0x03, 0x16, "dispremote.GetArtworkFormats", some []⟩,
  ⟨0x03, 0x17, "dispremote.RetArtworkFormats", none⟩,
  ⟨0x03, 0x18, "dispremote.GetTrackArtworkData", some [.num 4, .num 2, .num 4]⟩,
  ⟨0x03, 0x19, "dispremote.RetTrackArtworkData", some []⟩,
  ⟨0x03, 0x1A, "dispremote.GetPowerBatteryState", some []⟩,
  ⟨0x03, 0x1B, "dispremote.RetPowerBatteryState", some [.num 1, .num 1]⟩,
  ⟨0x03, 0x1C, "dispremote.GetSoundCheckState", some []⟩,
  ⟨0x03, 0x1D, "dispremote.RetSoundCheckState", some [.flag]⟩,
  ⟨0x03, 0x1E, "dispremote.SetSoundCheckState", some [.flag, .flag]⟩,
  ⟨0x03, 0x1F, "dispremote.GetTrackArtworkTimes", some [.num 4, .num 2, .num 2, .num 2]⟩,
  ⟨0x03, 0x20, "dispremote.RetTrackArtworkTimes", none⟩,
  -- lingo-extremote
  ⟨0x04, 0x0001, "extremote.ACK", some [.num 1, .num 2]⟩,
  ⟨0x04, 0x0002, "extremote.GetCurrentPlayingTrackChapterInfo", some []⟩,
  ⟨0x04, 0x0003, "extremote.ReturnCurrentPlayingTrackChapterInfo", some [.int 4, .int 4]⟩,
  ⟨0x04, 0x0004, "extremote.SetCurrentPlayingTrackChapter", some [.int 4]⟩,
  ⟨0x04, 0x0005, "extremote.GetCurrentPlayingTrackChapterPlayStatus", some [.int 4]⟩,
  ⟨0x04, 0x0006, "extremote.ReturnCurrentPlayingTrackChapterPlayStatus", some [.num 4, .num 4]⟩,
  ⟨0x04, 0x0007, "extremote.GetCurrentPlayingTrackChapterName", some [.int 4]⟩,
  ⟨0x04, 0x0008, "extremote.ReturnCurrentPlayingTrackChapterName", none⟩,
  ⟨0x04, 0x0009, "extremote.GetAudiobookSpeed", some []⟩,
  ⟨0x04, 0x000A, "extremote.ReturnAudiobookSpeed", some [.num 1]⟩,
  ⟨0x04, 0x000B, "extremote.SetAudiobookSpeed", some [.num 1]⟩,
  ⟨0x04, 0x000C, "extremote.GetIndexedPlayingTrackInfo", some [.num 1, .int 4, .int 2]⟩,
  ⟨0x04, 0x000D, "extremote.ReturnIndexedPlayingTrackInfo", none⟩,
  ⟨0x04, 0x000E, "extremote.GetArtworkFormats", some []⟩,
  ⟨0x04, 0x000F, "extremote.RetArtworkFormats", none⟩,
  ⟨0x04, 0x0010, "extremote.GetTrackArtworkData", some [.int 4, .num 2, .num 4]⟩,
  ⟨0x04, 0x0011, "extremote.RetTrackArtworkData", none⟩,
  ⟨0x04, 0x0016, "extremote.ResetDBSelection", some []⟩,
  ⟨0x04, 0x0017, "extremote.SelectDBRecord", some [.num 1, .int 4]⟩,
  ⟨0x04, 0x0018, "extremote.GetNumberCategorizedDBRecords", some [.num 1]⟩,
  ⟨0x04, 0x0019, "extremote.ReturnNumberCategorizedDBRecords", some [.int 4]⟩,
  ⟨0x04, 0x001A, "extremote.RetrieveCategorizedDatabaseRecords", some [.num 1, .num 4, .int 4]⟩,
  ⟨0x04, 0x001B, "extremote.ReturnCategorizedDatabaseRecord", some [.num 4, .raw 16]⟩,
  ⟨0x04, 0x001C, "extremote.GetPlayStatus", some []⟩,
  ⟨0x04, 0x001D, "extremote.ReturnPlayStatus", some [.num 4, .num 4, .num 1]⟩,
  ⟨0x04, 0x001E, "extremote.GetCurrentPlayingTrackIndex", some []⟩,
  ⟨0x04, 0x001F, "extremote.ReturnCurrentPlayingTrackIndex", some [.int 4]⟩,
  ⟨0x04, 0x0020, "extremote.GetIndexedPlayingTrackTitle", some [.int 4]⟩,
  ⟨0x04, 0x0021, "extremote.ReturnIndexedPlayingTrackTitle", none⟩,
  ⟨0x04, 0x0022, "extremote.GetIndexedPlayingTrackArtistName", some [.int 4]⟩,
  ⟨0x04, 0x0023, "extremote.ReturnIndexedPlayingTrackArtistName", none⟩,
  ⟨0x04, 0x0024, "extremote.GetIndexedPlayingTrackAlbumName", some [.int 4]⟩,
  ⟨0x04, 0x0025, "extremote.ReturnIndexedPlayingTrackAlbumName", none⟩,
  ⟨0x04, 0x0026, "extremote.SetPlayStatusChangeNotification", some [.num 4]⟩,
  ⟨0x04, 0x0026, "extremote.SetPlayStatusChangeNotificationShort", some [.flag]⟩,
  ⟨0x04, 0x0027, "extremote.PlayStatusChangeNotification", some [.num 1]⟩,
  ⟨0x04, 0x0028, "extremote.PlayCurrentSelection", some [.int 4]⟩,
  ⟨0x04, 0x0029, "extremote.PlayControl", some [.num 1]⟩,
  ⟨0x04, 0x002A, "extremote.GetTrackArtworkTimes", some [.int 4, .num 2, .num 2, .int 2]⟩,
  ⟨0x04, 0x002B, "extremote.RetTrackArtworkTimes", some []⟩,
  ⟨0x04, 0x002C, "extremote.GetShuffle", some []⟩,
  ⟨0x04, 0x002D, "extremote.ReturnShuffle", some [.num 1]⟩,
  ⟨0x04, 0x002E, "extremote.SetShuffle", some [.num 1]⟩,
  ⟨0x04, 0x002F, "extremote.GetRepeat", some []⟩,
  ⟨0x04, 0x0030, "extremote.ReturnRepeat", some [.num 1]⟩,
  ⟨0x04, 0x0031, "extremote.SetRepeat", some [.num 1]⟩,
  ⟨0x04, 0x0032, "extremote.SetDisplayImage", some []⟩,
  ⟨0x04, 0x0033, "extremote.GetMonoDisplayImageLimits", some []⟩,
  ⟨0x04, 0x0034, "extremote.ReturnMonoDisplayImageLimits", some [.num 2, .num 2, .num 1]⟩,
  ⟨0x04, 0x0035, "extremote.GetNumPlayingTracks", some []⟩,
  ⟨0x04, 0x0036, "extremote.ReturnNumPlayingTracks", some [.num 4]⟩,
  ⟨0x04, 0x0037, "extremote.SetCurrentPlayingTrack", some [.int 4]⟩,
  ⟨0x04, 0x0038, "extremote.SelectSortDBRecord", some [.num 1, .int 4, .num 1]⟩,
  ⟨0x04, 0x0039, "extremote.GetColorDisplayImageLimits", some []⟩,
  ⟨0x04, 0x003A, "extremote.ReturnColorDisplayImageLimits", some [.num 2, .num 2, .num 1]⟩,
  ⟨0x04, 0x003B, "extremote.ResetDBSelectionHierarchy", some [.num 1]⟩,
  ⟨0x04, 0x003C, "extremote.GetDBiTunesInfo", some []⟩,
  ⟨0x04, 0x003D, "extremote.RetDBiTunesInfo", some []⟩,
  ⟨0x04, 0x003E, "extremote.GetUIDTrackInfo", some []⟩,
  ⟨0x04, 0x003F, "extremote.RetUIDTrackInfo", some []⟩,
  ⟨0x04, 0x0040, "extremote.GetDBTrackInfo", some []⟩,
  ⟨0x04, 0x0041, "extremote.RetDBTrackInfo", some []⟩,
  ⟨0x04, 0x0042, "extremote.GetPBTrackInfo", some []⟩,
  ⟨0x04, 0x0043, "extremote.RetPBTrackInfo", some []⟩,
  -- lingo-general
  ⟨0x00, 0x00, "general.RequestIdentify", some []⟩,
  ⟨0x00, 0x02, "general.ACK", some [.num 1, .num 1]⟩,
  ⟨0x00, 0x02, "general.ACKPending", some [.num 1, .num 1, .num 4]⟩,
  ⟨0x00, 0x02, "general.ACKDataDropped", some [.num 1, .num 1, .num 2, .num 4]⟩,
  ⟨0x00, 0x03, "general.RequestRemoteUIMode", some []⟩,
  ⟨0x00, 0x04, "general.ReturnRemoteUIMode", some [.num 1]⟩,
  ⟨0x00, 0x05, "general.EnterRemoteUIMode", some []⟩,
  ⟨0x00, 0x06, "general.ExitRemoteUIMode", some []⟩,
  ⟨0x00, 0x07, "general.RequestiPodName", some []⟩,
  ⟨0x00, 0x08, "general.ReturniPodName", none⟩,
  ⟨0x00, 0x09, "general.RequestiPodSoftwareVersion", some []⟩,
  ⟨0x00, 0x0A, "general.ReturniPodSoftwareVersion", some [.num 1, .num 1, .num 1]⟩,
  ⟨0x00, 0x0B, "general.RequestiPodSerialNum", some []⟩,
  ⟨0x00, 0x0C, "general.ReturniPodSerialNum", none⟩,
  ⟨0x00, 0x0D, "general.RequestiPodModelNum", some []⟩,
  ⟨0x00, 0x0E, "general.ReturniPodModelNum", none⟩,
  ⟨0x00, 0x0F, "general.RequestLingoProtocolVersion", some [.num 1]⟩,
  ⟨0x00, 0x10, "general.ReturnLingoProtocolVersion", some [.num 1, .num 1, .num 1]⟩,
  ⟨0x00, 0x11, "general.RequestTransportMaxPayloadSize", some []⟩,
  ⟨0x00, 0x12, "general.ReturnTransportMaxPayloadSize", some [.num 2]⟩,
  ⟨0x00, 0x13, "general.IdentifyDeviceLingoes", some [.num 4, .num 4, .num 4]⟩,
  ⟨0x00, 0x14, "general.GetDevAuthenticationInfo", some []⟩,
  ⟨0x00, 0x15, "general.RetDevAuthenticationInfo", none⟩,
  ⟨0x00, 0x16, "general.AckDevAuthenticationInfo", some [.num 1]⟩,
  ⟨0x00, 0x17, "general.GetDevAuthenticationSignatureV1", some [.raw 16, .num 1]⟩,
  ⟨0x00, 0x17, "general.GetDevAuthenticationSignatureV2", some [.raw 20, .num 1]⟩,
  ⟨0x00, 0x18, "general.RetDevAuthenticationSignature", none⟩,
  ⟨0x00, 0x19, "general.AckDevAuthenticationStatus", some [.num 1]⟩,
  ⟨0x00, 0x1A, "general.GetiPodAuthenticationInfo", some []⟩,
  ⟨0x00, 0x1B, "general.RetiPodAuthenticationInfo", none⟩,
  ⟨0x00, 0x1C, "general.AckiPodAuthenticationInfo", some [.num 1]⟩,
  ⟨0x00, 0x1D, "general.GetiPodAuthenticationSignature", some [.raw 20, .num 1]⟩,
  ⟨0x00, 0x1E, "general.RetiPodAuthenticationSignature", some [.raw 20]⟩,
  ⟨0x00, 0x1F, "general.AckiPodAuthenticationStatus", some [.num 1]⟩,
  ⟨0x00, 0x23, "general.NotifyiPodStateChange", some [.num 1]⟩,
  ⟨0x00, 0x24, "general.GetiPodOptions", some []⟩,
  ⟨0x00, 0x25, "general.RetiPodOptions", some [.num 8]⟩,
  ⟨0x00, 0x27, "general.GetAccessoryInfo", some [.num 1]⟩,
  ⟨0x00, 0x28, "general.RetAccessoryInfo", none⟩,
  ⟨0x00, 0x29, "general.GetiPodPreferences", some [.num 1]⟩,
  ⟨0x00, 0x2A, "general.RetiPodPreferences", some [.num 1, .num 1]⟩,
  ⟨0x00, 0x2B, "general.SetiPodPreferences", some [.num 1, .num 1, .num 1]⟩,
  ⟨0x00, 0x35, "general.GetUIMode", some []⟩,
  ⟨0x00, 0x36, "general.RetUIMode", some [.num 1]⟩,
  ⟨0x00, 0x37, "general.SetUIMode", some [.num 1]⟩,
  ⟨0x00, 0x38, "general.StartIDPS", some []⟩,
  ⟨0x00, 0x39, "general.SetFIDTokenValues", none⟩,
  ⟨0x00, 0x3A, "general.RetFIDTokenValueACKs", none⟩,
  ⟨0x00, 0x3B, "general.EndIDPS", some [.num 1]⟩,
  ⟨0x00, 0x3C, "general.IDPSStatus", some [.num 1]⟩,
  ⟨0x00, 0x3F, "general.OpenDataSessionForProtocol", some [.num 2, .num 1]⟩,
  ⟨0x00, 0x40, "general.CloseDataSession", some [.num 2]⟩,
  ⟨0x00, 0x41, "general.DevACK", some [.num 1, .num 1]⟩,
  ⟨0x00, 0x42, "general.DevDataTransfer", none⟩,
  ⟨0x00, 0x43, "general.IPodDataTransfer", none⟩,
  ⟨0x00, 0x46, "general.SetAccStatusNotification", some [.num 4]⟩,
  ⟨0x00, 0x47, "general.RetAccStatusNotification", some [.num 4]⟩,
  ⟨0x00, 0x48, "general.AccessoryStatusNotification", none⟩,
  ⟨0x00, 0x49, "general.SetEventNotification", some [.num 8]⟩,
  ⟨0x00, 0x4A, "general.IPodNotification", none⟩,
  ⟨0x00, 0x4B, "general.GetiPodOptionsForLingo", some [.num 1]⟩,
  ⟨0x00, 0x4C, "general.RetiPodOptionsForLingo", some [.num 1, .num 8]⟩,
  ⟨0x00, 0x4D, "general.GetEventNotification", some []⟩,
  ⟨0x00, 0x4E, "general.RetEventNotification", some [.num 8]⟩,
  ⟨0x00, 0x4F, "general.GetSupportedEventNotification", some []⟩,
  ⟨0x00, 0x50, "general.CancelCommand", some [.num 1, .num 2, .num 2]⟩,
  ⟨0x00, 0x51, "general.RetSupportedEventNotification", some [.num 8]⟩,
  ⟨0x00, 0x54, "general.SetAvailableCurrent", some [.num 2]⟩,
  ⟨0x00, 0x64, "general.RequestApplicationLaunch", none⟩,
  ⟨0x00, 0x65, "general.GetNowPlayingFocusApp", some []⟩,
  ⟨0x00, 0x66, "general.RetNowPlayingFocusApp", none⟩,
  -- lingo-simpleremote
  ⟨0x02, 0x00, "simpleremote.ContextButtonStatus", none⟩,
  ⟨0x02, 0x01, "simpleremote.ACK", some []⟩,
  ⟨0x02, 0x03, "simpleremote.VideoButtonStatus", none⟩,
  ⟨0x02, 0x04, "simpleremote.AudioButtonStatus", none⟩,
  ⟨0x02, 0x0B, "simpleremote.iPodOutButtonStatus", some [.num 1]⟩,
  ⟨0x02, 0x0C, "simpleremote.RotationInputStatus", some []⟩,
  ⟨0x02, 0x0D, "simpleremote.RadioButtonStatus", some []⟩,
  ⟨0x02, 0x0E, "simpleremote.CameraButtonStatus", some []⟩,
  ⟨0x02, 0x0F, "simpleremote.RegisterDescriptor", some []⟩,
  ⟨0x02, 0x10, "simpleremote.SendHIDReportToiPod", some []⟩,
  ⟨0x02, 0x11, "simpleremote.SendHIDReportToAcc", some []⟩,
  ⟨0x02, 0x12, "simpleremote.UnregisterDescriptor", some []⟩,
  ⟨0x02, 0x13, "simpleremote.AccessibilityEvent", some []⟩,
  ⟨0x02, 0x14, "simpleremote.GetAccessibilityParameter", some []⟩,
  ⟨0x02, 0x15, "simpleremote.RetAccessibilityParameter", some []⟩,
  ⟨0x02, 0x16, "simpleremote.SetAccessibilityParameter", some []⟩,
  ⟨0x02, 0x17, "simpleremote.GetCurrentItemProperty", some []⟩,
  ⟨0x02, 0x18, "simpleremote.RetCurrentItemProperty", some []⟩,
  ⟨0x02, 0x19, "simpleremote.SetContext", some []⟩,
  ⟨0x02, 0x1A, "simpleremote.AccParameterChanged", some []⟩,
  ⟨0x02, 0x81, "simpleremote.DevACK", some []⟩]

end Spec
