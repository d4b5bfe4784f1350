import Verif.Go.Format
import Verif.Model.Lingo

/-! Model of the texts: the generated `String` methods (stringer), the mask texts, the texts of ids and transactions, and
the listing of the registered commands. The string constants and index tables are copied from the generated files. -/

namespace Ipod
open Go

/-- The last case of every generated `String`: `"T(" + strconv.FormatInt(int64(i), 10) + ")"`. See lingo-general/lingobit_string.go:59. -/
def unnamed (ty : String) (n : Nat) : Bytes := ascii ty ++ [0x28] ++ formatInt10 n ++ [0x29]

/-- lingo-general/lingobit_string.go:36-61 `LingoBit.String`, constants of lines 23-34. -/
def lingoBitString (i : UInt32) : Bytes :=
  if i = 1 then ascii "LingoGeneralBit"
  else if i = 4 then ascii "LingoSimpleRemoteBit"
  else if i = 8 then ascii "LingoDisplayRemoteBit"
  else if i = 16 then ascii "LingoExtRemoteBit"
  else if i = 64 then ascii "LingoUSBHostBit"
  else if i = 128 then ascii "LingoRFTunerBit"
  else if i = 256 then ascii "LingoEqBit"
  else if i = 512 then ascii "LingoSportsBit"
  else if i = 1024 then ascii "LingoDigitalAudioBit"
  else if i = 4096 then ascii "LingoStorageBit"
  else unnamed "LingoBit" i.toNat

/-- lingo-simpleremote/contextbuttonbit_string.go:40 `_ContextButtonBit_name`. -/
def contextButtonNames : Bytes :=
  pieces ["ContextButtonPlayPau", "seContextButtonVolum", "eUpContextButtonVolu", "meDownContextButtonN",
    "extTrackContextButto", "nPreviousTrackContex", "tButtonNextAlbumCont", "extButtonPreviousAlb",
    "umContextButtonStopC", "ontextButtonPlayResu", "meContextButtonPause", "ContextButtonMuteTog",
    "gleContextButtonNext", "ChapterContextButton", "PreviousChapterConte", "xtButtonNextPlaylist",
    "ContextButtonPreviou", "sPlaylistContextButt", "onShuffleSettingAdva", "nceContextButtonRepe",
    "atSettingAdvanceCont", "extButtonPowerOnCont", "extButtonPowerOffCon", "textButtonBacklightf",
    "or30SecondsContextBu", "ttonBeginFastForward", "ContextButtonBeginRe", "windContextButtonMen",
    "uContextButtonSelect", "ContextButtonUpArrow", "ContextButtonDownArr", "owContextButtonBackl",
    "ightOff"]

/-- lingo-simpleremote/contextbuttonbit_string.go:42-70 `_ContextButtonBit_map`: value, start and end of its name. -/
def contextButtonMap : List (UInt32 × Nat × Nat) :=
  [(1, 0, 22),
   (2, 22, 43),
   (4, 43, 66),
   (8, 66, 88),
   (16, 88, 114),
   (32, 114, 136),
   (64, 136, 162),
   (128, 162, 179),
   (256, 179, 202),
   (512, 202, 220),
   (1024, 220, 243),
   (2048, 243, 267),
   (4096, 267, 295),
   (8192, 295, 320),
   (16384, 320, 349),
   (32768, 349, 383),
   (65536, 383, 416),
   (131072, 416, 436),
   (262144, 436, 457),
   (524288, 457, 491),
   (1048576, 491, 520),
   (2097152, 520, 544),
   (4194304, 544, 561),
   (8388608, 561, 580),
   (16777216, 580, 600),
   (33554432, 600, 622),
   (67108864, 622, 647)]

/-- lingo-simpleremote/contextbuttonbit_string.go:72-77 `ContextButtonBit.String`. -/
def contextButtonBitString (i : UInt32) : Bytes :=
  match mapGet contextButtonMap i with
  | some (a, b) => substr contextButtonNames a b
  | none => unnamed "ContextButtonBit" i.toNat

/-- `name[index[i]:index[i+1]]` of the generated methods; the index arrays are long enough for every `i` used.
See lingo-general/accinfotype_string.go:29-39. -/
def indexed (name : Bytes) (index : List Nat) (i : Nat) : Bytes := substr name (index.getD i 0) (index.getD (i + 1) 0)

/-- lingo-general/accinfotype_string.go:29-39 `AccInfoType.String`, constants of lines 20-27. -/
def accInfoTypeString (i : UInt8) : Bytes :=
  if i = 1 then ascii "AccInfoName"
  else if 4 ≤ i ∧ i ≤ 9 then
    indexed (pieces ["AccInfoFirmwareAccIn", "foHardwareAccInfoMfr", "AccInfoModelAccInfoS", "erialAccInfoMaxPaylo", "ad"]) [0, 15, 30, 40, 52, 65, 82]
      (i - 4).toNat
  else unnamed "AccInfoType" i.toNat

/-- lingo-general/acccapbit_string.go:31-47 `AccCapBit.String`, constants of lines 19-29. -/
def accCapBitString (i : UInt32) : Bytes :=
  if 1 ≤ i ∧ i ≤ 2 then indexed (pieces ["AccCapAnalogLineOutA", "ccCapAnalogLineIn"]) [0, 19, 37] (i - 1).toNat
  else if i = 4 then ascii "AccCapAnalogVideoOut"
  else if i = 16 then ascii "AccCapUSBAudio"
  else if i = 512 then ascii "AccCapAppComm"
  else if i = 2048 then ascii "AccCapCheckVolume"
  else unnamed "AccCapBit" i.toNat

/-- lingo-dispremote/infotype_string.go:39-49 `InfoType.String`, constants of lines 29-37. -/
def infoTypeString (i : UInt8) : Bytes :=
  if i ≤ 9 then
    indexed
      (pieces ["InfoTypeTrackPositio", "nMsInfoTypeTrackInde", "xInfoTypeChapterInde", "xInfoTypePlayStatusI",
        "nfoTypeVolumeInfoTyp", "ePowerInfoTypeEquali", "zerInfoTypeShuffleIn", "foTypeRepeatInfoType",
        "DateTime"])
      [0, 23, 41, 61, 79, 93, 106, 123, 138, 152, 168] i.toNat
  else if 11 ≤ i ∧ i ≤ 16 then
    indexed
      (pieces ["InfoTypeBacklightInf", "oTypeHoldSwitchInfoT", "ypeSoundCheckInfoTyp", "eAudiobookSpeedInfoT",
        "ypeTrackPositionSecI", "nfoTypeVolume2"])
      [0, 17, 35, 53, 75, 99, 114] (i - 11).toNat
  else unnamed "InfoType" i.toNat

/-- lingo-dispremote/playstatustype_string.go:23-28 `PlayStatusType.String` with its constants. -/
def playStatusTypeString (i : UInt8) : Bytes :=
  if i ≥ UInt8.ofNat ([0, 17, 34, 50, 62, 75, 93].length - 1) then unnamed "PlayStatusType" i.toNat
  else
    indexed
      (pieces ["PlayStatusStoppedPla", "yStatusPlayingPlaySt", "atusPausedPlayStatus", "FFPlayStatusREWPlayS",
        "tatusEndFFREW"])
      [0, 17, 34, 50, 62, 75, 93] i.toNat

/-- lingo-dispremote/trackinfotype_string.go:26-31 `TrackInfoType.String` with its constants. -/
def trackInfoTypeString (i : UInt8) : Bytes :=
  if i ≥ UInt8.ofNat ([0, 17, 45, 64, 82, 100, 118, 139, 158, 183].length - 1) then unnamed "TrackInfoType" i.toNat
  else
    indexed
      (pieces ["TrackInfoTypeCapsTra", "ckInfoTypeChapterTim", "eNameTrackInfoTypeAr", "tistTrackInfoTypeAlb",
        "umTrackInfoTypeGenre", "TrackInfoTypeTrackTr", "ackInfoTypeComposerT", "rackInfoTypeLyricsTr",
        "ackInfoTypeArtworkCo", "unt"])
      [0, 17, 45, 64, 82, 100, 118, 139, 158, 183] i.toNat

/-- The loop of the two mask texts: labels of the bits `i`, ..., `i + n - 1` that are set.
See lingo-general/general.go:235-241, lingo-simpleremote/simpleremote.go:106-114. -/
def maskLabels (name : UInt32 → Bytes) (m : UInt32) : Nat → Nat → List Bytes
  | _, 0 => []
  | i, n + 1 =>
    let bit : UInt32 := 1 <<< UInt32.ofNat i
    if m &&& bit ≠ 0 then name bit :: maskLabels name m (i + 1) n else maskLabels name m (i + 1) n

/-- lingo-general/general.go:234-243 `LingoMask.String`. -/
def lingoMaskString (m : UInt32) : Bytes := joinStrings (ascii " | ") (maskLabels lingoBitString m 0 32)

/-- lingo-simpleremote/simpleremote.go:106-115 `ContextButtonMask.String`. -/
def contextButtonMaskString (m : UInt32) : Bytes := joinStrings (ascii " | ") (maskLabels contextButtonBitString m 0 32)

/-- lingo.go:24-26 `LingoCmdID.GoString`: `(%#02x|%#0*x)`. -/
def LingoCmdID.goString (id : LingoCmdID) : Bytes :=
  ascii "(" ++ fmtHex true 2 id.lingoID.toNat ++ ascii "|" ++ fmtHex true (cmdIDLen id.lingoID * 2) id.cmdID.toNat ++ ascii ")"

/-- lingo.go:28-30 `LingoCmdID.String`: `%#02x,%#0*x`. -/
def LingoCmdID.string (id : LingoCmdID) : Bytes :=
  fmtHex true 2 id.lingoID.toNat ++ ascii "," ++ fmtHex true (cmdIDLen id.lingoID * 2) id.cmdID.toNat

/-- cmd.go:46-48 `Transaction.String`: `%#04x` of the number. -/
def trxString (tr : UInt16) : Bytes := fmtHex true 4 tr.toNat

/-- cmd.go:42-44 `Transaction.GoString`: `%#04x` of the transaction, which has a `String` method, so that fmt prints the
hex form of that text (fmt/print.go `handleMethods`, `fmtString`). -/
def trxGoString (tr : UInt16) : Bytes := fmtStringHex (trxString tr)

/-- lingo.go:116-134 `DumpLingos`. `order` is the order in which the map is iterated, `sorted` the order `sort.Slice`
leaves: some arrangement in which no element is less than one before it (the sort is not stable). `name` is
`reflect.Type.String`; `types[0]` exists for every entry `storeMapping` makes. -/
def DumpLingos {T : Type} (name : T → Bytes) (r : Registry T) (text : Bytes) : Prop :=
  ∃ (order : List (LingoCmdID × List T)) (cmds sorted : List (LingoCmdID × Bytes)),
    order.Perm r.idToType ∧
    cmds = order.map (fun e => (e.1, match e.2 with | t :: _ => name t | [] => [])) ∧
    sorted.Perm cmds ∧
    sorted.Pairwise (fun a b => ¬ b.1 < a.1) ∧
    text = sorted.flatMap fun c => c.1.goString ++ ascii "\t" ++ c.2 ++ ascii "\n"

/-- `reflect.Type.String` of the types of lingo-general/general.go: package and type name. -/
def GenT.typeName : GenT → String
  | .RequestIdentify => "general.RequestIdentify"
  | .ACK => "general.ACK"
  | .ACKPending => "general.ACKPending"
  | .ACKDataDropped => "general.ACKDataDropped"
  | .RequestRemoteUIMode => "general.RequestRemoteUIMode"
  | .ReturnRemoteUIMode => "general.ReturnRemoteUIMode"
  | .EnterRemoteUIMode => "general.EnterRemoteUIMode"
  | .ExitRemoteUIMode => "general.ExitRemoteUIMode"
  | .RequestiPodName => "general.RequestiPodName"
  | .ReturniPodName => "general.ReturniPodName"
  | .RequestiPodSoftwareVersion => "general.RequestiPodSoftwareVersion"
  | .ReturniPodSoftwareVersion => "general.ReturniPodSoftwareVersion"
  | .RequestiPodSerialNum => "general.RequestiPodSerialNum"
  | .ReturniPodSerialNum => "general.ReturniPodSerialNum"
  | .RequestiPodModelNum => "general.RequestiPodModelNum"
  | .ReturniPodModelNum => "general.ReturniPodModelNum"
  | .RequestLingoProtocolVersion => "general.RequestLingoProtocolVersion"
  | .ReturnLingoProtocolVersion => "general.ReturnLingoProtocolVersion"
  | .RequestTransportMaxPayloadSize => "general.RequestTransportMaxPayloadSize"
  | .ReturnTransportMaxPayloadSize => "general.ReturnTransportMaxPayloadSize"
  | .IdentifyDeviceLingoes => "general.IdentifyDeviceLingoes"
  | .GetDevAuthenticationInfo => "general.GetDevAuthenticationInfo"
  | .RetDevAuthenticationInfo => "general.RetDevAuthenticationInfo"
  | .AckDevAuthenticationInfo => "general.AckDevAuthenticationInfo"
  | .GetDevAuthenticationSignatureV1 => "general.GetDevAuthenticationSignatureV1"
  | .GetDevAuthenticationSignatureV2 => "general.GetDevAuthenticationSignatureV2"
  | .RetDevAuthenticationSignature => "general.RetDevAuthenticationSignature"
  | .AckDevAuthenticationStatus => "general.AckDevAuthenticationStatus"
  | .GetiPodAuthenticationInfo => "general.GetiPodAuthenticationInfo"
  | .RetiPodAuthenticationInfo => "general.RetiPodAuthenticationInfo"
  | .AckiPodAuthenticationInfo => "general.AckiPodAuthenticationInfo"
  | .GetiPodAuthenticationSignature => "general.GetiPodAuthenticationSignature"
  | .RetiPodAuthenticationSignature => "general.RetiPodAuthenticationSignature"
  | .AckiPodAuthenticationStatus => "general.AckiPodAuthenticationStatus"
  | .NotifyiPodStateChange => "general.NotifyiPodStateChange"
  | .GetiPodOptions => "general.GetiPodOptions"
  | .RetiPodOptions => "general.RetiPodOptions"
  | .GetAccessoryInfo => "general.GetAccessoryInfo"
  | .RetAccessoryInfo => "general.RetAccessoryInfo"
  | .GetiPodPreferences => "general.GetiPodPreferences"
  | .RetiPodPreferences => "general.RetiPodPreferences"
  | .SetiPodPreferences => "general.SetiPodPreferences"
  | .GetUIMode => "general.GetUIMode"
  | .RetUIMode => "general.RetUIMode"
  | .SetUIMode => "general.SetUIMode"
  | .StartIDPS => "general.StartIDPS"
  | .SetFIDTokenValues => "general.SetFIDTokenValues"
  | .RetFIDTokenValueACKs => "general.RetFIDTokenValueACKs"
  | .EndIDPS => "general.EndIDPS"
  | .IDPSStatus => "general.IDPSStatus"
  | .OpenDataSessionForProtocol => "general.OpenDataSessionForProtocol"
  | .CloseDataSession => "general.CloseDataSession"
  | .DevACK => "general.DevACK"
  | .DevDataTransfer => "general.DevDataTransfer"
  | .IPodDataTransfer => "general.IPodDataTransfer"
  | .SetAccStatusNotification => "general.SetAccStatusNotification"
  | .RetAccStatusNotification => "general.RetAccStatusNotification"
  | .AccessoryStatusNotification => "general.AccessoryStatusNotification"
  | .SetEventNotification => "general.SetEventNotification"
  | .IPodNotification => "general.IPodNotification"
  | .GetiPodOptionsForLingo => "general.GetiPodOptionsForLingo"
  | .RetiPodOptionsForLingo => "general.RetiPodOptionsForLingo"
  | .GetEventNotification => "general.GetEventNotification"
  | .RetEventNotification => "general.RetEventNotification"
  | .GetSupportedEventNotification => "general.GetSupportedEventNotification"
  | .CancelCommand => "general.CancelCommand"
  | .RetSupportedEventNotification => "general.RetSupportedEventNotification"
  | .SetAvailableCurrent => "general.SetAvailableCurrent"
  | .RequestApplicationLaunch => "general.RequestApplicationLaunch"
  | .GetNowPlayingFocusApp => "general.GetNowPlayingFocusApp"
  | .RetNowPlayingFocusApp => "general.RetNowPlayingFocusApp"

/-- `reflect.Type.String` of the types of lingo-extremote/extremote.go: package and type name. -/
def ExtT.typeName : ExtT → String
  | .ACK => "extremote.ACK"
  | .GetCurrentPlayingTrackChapterInfo => "extremote.GetCurrentPlayingTrackChapterInfo"
  | .ReturnCurrentPlayingTrackChapterInfo => "extremote.ReturnCurrentPlayingTrackChapterInfo"
  | .SetCurrentPlayingTrackChapter => "extremote.SetCurrentPlayingTrackChapter"
  | .GetCurrentPlayingTrackChapterPlayStatus => "extremote.GetCurrentPlayingTrackChapterPlayStatus"
  | .ReturnCurrentPlayingTrackChapterPlayStatus => "extremote.ReturnCurrentPlayingTrackChapterPlayStatus"
  | .GetCurrentPlayingTrackChapterName => "extremote.GetCurrentPlayingTrackChapterName"
  | .ReturnCurrentPlayingTrackChapterName => "extremote.ReturnCurrentPlayingTrackChapterName"
  | .GetAudiobookSpeed => "extremote.GetAudiobookSpeed"
  | .ReturnAudiobookSpeed => "extremote.ReturnAudiobookSpeed"
  | .SetAudiobookSpeed => "extremote.SetAudiobookSpeed"
  | .GetIndexedPlayingTrackInfo => "extremote.GetIndexedPlayingTrackInfo"
  | .ReturnIndexedPlayingTrackInfo => "extremote.ReturnIndexedPlayingTrackInfo"
  | .GetArtworkFormats => "extremote.GetArtworkFormats"
  | .RetArtworkFormats => "extremote.RetArtworkFormats"
  | .GetTrackArtworkData => "extremote.GetTrackArtworkData"
  | .RetTrackArtworkData => "extremote.RetTrackArtworkData"
  | .ResetDBSelection => "extremote.ResetDBSelection"
  | .SelectDBRecord => "extremote.SelectDBRecord"
  | .GetNumberCategorizedDBRecords => "extremote.GetNumberCategorizedDBRecords"
  | .ReturnNumberCategorizedDBRecords => "extremote.ReturnNumberCategorizedDBRecords"
  | .RetrieveCategorizedDatabaseRecords => "extremote.RetrieveCategorizedDatabaseRecords"
  | .ReturnCategorizedDatabaseRecord => "extremote.ReturnCategorizedDatabaseRecord"
  | .GetPlayStatus => "extremote.GetPlayStatus"
  | .ReturnPlayStatus => "extremote.ReturnPlayStatus"
  | .GetCurrentPlayingTrackIndex => "extremote.GetCurrentPlayingTrackIndex"
  | .ReturnCurrentPlayingTrackIndex => "extremote.ReturnCurrentPlayingTrackIndex"
  | .GetIndexedPlayingTrackTitle => "extremote.GetIndexedPlayingTrackTitle"
  | .ReturnIndexedPlayingTrackTitle => "extremote.ReturnIndexedPlayingTrackTitle"
  | .GetIndexedPlayingTrackArtistName => "extremote.GetIndexedPlayingTrackArtistName"
  | .ReturnIndexedPlayingTrackArtistName => "extremote.ReturnIndexedPlayingTrackArtistName"
  | .GetIndexedPlayingTrackAlbumName => "extremote.GetIndexedPlayingTrackAlbumName"
  | .ReturnIndexedPlayingTrackAlbumName => "extremote.ReturnIndexedPlayingTrackAlbumName"
  | .SetPlayStatusChangeNotification => "extremote.SetPlayStatusChangeNotification"
  | .SetPlayStatusChangeNotificationShort => "extremote.SetPlayStatusChangeNotificationShort"
  | .PlayStatusChangeNotification => "extremote.PlayStatusChangeNotification"
  | .PlayCurrentSelection => "extremote.PlayCurrentSelection"
  | .PlayControl => "extremote.PlayControl"
  | .GetTrackArtworkTimes => "extremote.GetTrackArtworkTimes"
  | .RetTrackArtworkTimes => "extremote.RetTrackArtworkTimes"
  | .GetShuffle => "extremote.GetShuffle"
  | .ReturnShuffle => "extremote.ReturnShuffle"
  | .SetShuffle => "extremote.SetShuffle"
  | .GetRepeat => "extremote.GetRepeat"
  | .ReturnRepeat => "extremote.ReturnRepeat"
  | .SetRepeat => "extremote.SetRepeat"
  | .SetDisplayImage => "extremote.SetDisplayImage"
  | .GetMonoDisplayImageLimits => "extremote.GetMonoDisplayImageLimits"
  | .ReturnMonoDisplayImageLimits => "extremote.ReturnMonoDisplayImageLimits"
  | .GetNumPlayingTracks => "extremote.GetNumPlayingTracks"
  | .ReturnNumPlayingTracks => "extremote.ReturnNumPlayingTracks"
  | .SetCurrentPlayingTrack => "extremote.SetCurrentPlayingTrack"
  | .SelectSortDBRecord => "extremote.SelectSortDBRecord"
  | .GetColorDisplayImageLimits => "extremote.GetColorDisplayImageLimits"
  | .ReturnColorDisplayImageLimits => "extremote.ReturnColorDisplayImageLimits"
  | .ResetDBSelectionHierarchy => "extremote.ResetDBSelectionHierarchy"
  | .GetDBiTunesInfo => "extremote.GetDBiTunesInfo"
  | .RetDBiTunesInfo => "extremote.RetDBiTunesInfo"
  | .GetUIDTrackInfo => "extremote.GetUIDTrackInfo"
  | .RetUIDTrackInfo => "extremote.RetUIDTrackInfo"
  | .GetDBTrackInfo => "extremote.GetDBTrackInfo"
  | .RetDBTrackInfo => "extremote.RetDBTrackInfo"
  | .GetPBTrackInfo => "extremote.GetPBTrackInfo"
  | .RetPBTrackInfo => "extremote.RetPBTrackInfo"

/-- `reflect.Type.String` of the types of lingo-dispremote/dispremote.go: package and type name. -/
def DispT.typeName : DispT → String
  | .ACK => "dispremote.ACK"
  | .GetCurrentEQProfileIndex => "dispremote.GetCurrentEQProfileIndex"
  | .RetCurrentEQProfileIndex => "dispremote.RetCurrentEQProfileIndex"
  | .SetCurrentEQProfileIndex => "dispremote.SetCurrentEQProfileIndex"
  | .GetNumEQProfiles => "dispremote.GetNumEQProfiles"
  | .RetNumEQProfiles => "dispremote.RetNumEQProfiles"
  | .GetIndexedEQProfileName => "dispremote.GetIndexedEQProfileName"
  | .RetIndexedEQProfileName => "dispremote.RetIndexedEQProfileName"
  | .SetRemoteEventNotification => "dispremote.SetRemoteEventNotification"
  | .RemoteEventNotification => "dispremote.RemoteEventNotification"
  | .GetRemoteEventStatus => "dispremote.GetRemoteEventStatus"
  | .RetRemoteEventStatus => "dispremote.RetRemoteEventStatus"
  | .GetiPodStateInfo => "dispremote.GetiPodStateInfo"
  | .RetiPodStateInfo => "dispremote.RetiPodStateInfo"
  | .SetiPodStateInfo => "dispremote.SetiPodStateInfo"
  | .GetPlayStatus => "dispremote.GetPlayStatus"
  | .RetPlayStatus => "dispremote.RetPlayStatus"
  | .SetCurrentPlayingTrack => "dispremote.SetCurrentPlayingTrack"
  | .GetIndexedPlayingTrackInfo => "dispremote.GetIndexedPlayingTrackInfo"
  | .RetIndexedPlayingTrackInfo => "dispremote.RetIndexedPlayingTrackInfo"
  | .GetNumPlayingTracks => "dispremote.GetNumPlayingTracks"
  | .RetNumPlayingTracks => "dispremote.RetNumPlayingTracks"
  | .GetArtworkFormats => "dispremote.GetArtworkFormats"
  | .RetArtworkFormats => "dispremote.RetArtworkFormats"
  | .GetTrackArtworkData => "dispremote.GetTrackArtworkData"
  | .RetTrackArtworkData => "dispremote.RetTrackArtworkData"
  | .GetPowerBatteryState => "dispremote.GetPowerBatteryState"
  | .RetPowerBatteryState => "dispremote.RetPowerBatteryState"
  | .GetSoundCheckState => "dispremote.GetSoundCheckState"
  | .RetSoundCheckState => "dispremote.RetSoundCheckState"
  | .SetSoundCheckState => "dispremote.SetSoundCheckState"
  | .GetTrackArtworkTimes => "dispremote.GetTrackArtworkTimes"
  | .RetTrackArtworkTimes => "dispremote.RetTrackArtworkTimes"

/-- `reflect.Type.String` of the types of lingo-audio/audio.go: package and type name. -/
def AudT.typeName : AudT → String
  | .AccAck => "audio.AccAck"
  | .iPodAck => "audio.iPodAck"
  | .GetAccSampleRateCaps => "audio.GetAccSampleRateCaps"
  | .RetAccSampleRateCaps => "audio.RetAccSampleRateCaps"
  | .TrackNewAudioAttributes => "audio.TrackNewAudioAttributes"
  | .SetVideoDelay => "audio.SetVideoDelay"

/-- `reflect.Type.String` of the types of lingo-simpleremote/simpleremote.go: package and type name. -/
def SimT.typeName : SimT → String
  | .ContextButtonStatus => "simpleremote.ContextButtonStatus"
  | .ACK => "simpleremote.ACK"
  | .VideoButtonStatus => "simpleremote.VideoButtonStatus"
  | .AudioButtonStatus => "simpleremote.AudioButtonStatus"
  | .iPodOutButtonStatus => "simpleremote.iPodOutButtonStatus"
  | .RotationInputStatus => "simpleremote.RotationInputStatus"
  | .RadioButtonStatus => "simpleremote.RadioButtonStatus"
  | .CameraButtonStatus => "simpleremote.CameraButtonStatus"
  | .RegisterDescriptor => "simpleremote.RegisterDescriptor"
  | .SendHIDReportToiPod => "simpleremote.SendHIDReportToiPod"
  | .SendHIDReportToAcc => "simpleremote.SendHIDReportToAcc"
  | .UnregisterDescriptor => "simpleremote.UnregisterDescriptor"
  | .AccessibilityEvent => "simpleremote.AccessibilityEvent"
  | .GetAccessibilityParameter => "simpleremote.GetAccessibilityParameter"
  | .RetAccessibilityParameter => "simpleremote.RetAccessibilityParameter"
  | .SetAccessibilityParameter => "simpleremote.SetAccessibilityParameter"
  | .GetCurrentItemProperty => "simpleremote.GetCurrentItemProperty"
  | .RetCurrentItemProperty => "simpleremote.RetCurrentItemProperty"
  | .SetContext => "simpleremote.SetContext"
  | .AccParameterChanged => "simpleremote.AccParameterChanged"
  | .DevACK => "simpleremote.DevACK"

/-- `reflect.Type.String` of the registered types. See lingo.go:123, cmd/ipod/log.go:23. -/
def TypeId.typeName : TypeId → String
  | .gen t => t.typeName
  | .ext t => t.typeName
  | .disp t => t.typeName
  | .aud t => t.typeName
  | .sim t => t.typeName

end Ipod
