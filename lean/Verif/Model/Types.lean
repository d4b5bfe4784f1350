import Verif.Model.Schema

/-!
# Message types

One constructor per registered message struct, per lingo; the schema lists the field types in declaration
order. Named integer types (`ACKStatus`, `InfoType`, ...) appear as their underlying type.
Generated from the struct declarations; the comment of each schema row gives the lines of the declaration.
-/

namespace Ipod
open Go FTy

/-- Message types of lingo-general/general.go (`Lingos`, lines 20-94). -/
inductive GenT where
  | RequestIdentify
  | ACK
  | ACKPending
  | ACKDataDropped
  | RequestRemoteUIMode
  | ReturnRemoteUIMode
  | EnterRemoteUIMode
  | ExitRemoteUIMode
  | RequestiPodName
  | ReturniPodName
  | RequestiPodSoftwareVersion
  | ReturniPodSoftwareVersion
  | RequestiPodSerialNum
  | ReturniPodSerialNum
  | RequestiPodModelNum
  | ReturniPodModelNum
  | RequestLingoProtocolVersion
  | ReturnLingoProtocolVersion
  | RequestTransportMaxPayloadSize
  | ReturnTransportMaxPayloadSize
  | IdentifyDeviceLingoes
  | GetDevAuthenticationInfo
  | RetDevAuthenticationInfo
  | AckDevAuthenticationInfo
  | GetDevAuthenticationSignatureV1
  | GetDevAuthenticationSignatureV2
  | RetDevAuthenticationSignature
  | AckDevAuthenticationStatus
  | GetiPodAuthenticationInfo
  | RetiPodAuthenticationInfo
  | AckiPodAuthenticationInfo
  | GetiPodAuthenticationSignature
  | RetiPodAuthenticationSignature
  | AckiPodAuthenticationStatus
  | NotifyiPodStateChange
  | GetiPodOptions
  | RetiPodOptions
  | GetAccessoryInfo
  | RetAccessoryInfo
  | GetiPodPreferences
  | RetiPodPreferences
  | SetiPodPreferences
  | GetUIMode
  | RetUIMode
  | SetUIMode
  | StartIDPS
  | SetFIDTokenValues
  | RetFIDTokenValueACKs
  | EndIDPS
  | IDPSStatus
  | OpenDataSessionForProtocol
  | CloseDataSession
  | DevACK
  | DevDataTransfer
  | IPodDataTransfer
  | SetAccStatusNotification
  | RetAccStatusNotification
  | AccessoryStatusNotification
  | SetEventNotification
  | IPodNotification
  | GetiPodOptionsForLingo
  | RetiPodOptionsForLingo
  | GetEventNotification
  | RetEventNotification
  | GetSupportedEventNotification
  | CancelCommand
  | RetSupportedEventNotification
  | SetAvailableCurrent
  | RequestApplicationLaunch
  | GetNowPlayingFocusApp
  | RetNowPlayingFocusApp
deriving DecidableEq, Repr

/-- All of them, in the order of `Lingos`. See lingo-general/general.go:19-95. -/
def GenT.all : List GenT := [.RequestIdentify, .ACK, .ACKPending, .ACKDataDropped, .RequestRemoteUIMode, .ReturnRemoteUIMode, .EnterRemoteUIMode, .ExitRemoteUIMode, .RequestiPodName, .ReturniPodName, .RequestiPodSoftwareVersion, .ReturniPodSoftwareVersion, .RequestiPodSerialNum, .ReturniPodSerialNum, .RequestiPodModelNum, .ReturniPodModelNum, .RequestLingoProtocolVersion, .ReturnLingoProtocolVersion, .RequestTransportMaxPayloadSize, .ReturnTransportMaxPayloadSize, .IdentifyDeviceLingoes, .GetDevAuthenticationInfo, .RetDevAuthenticationInfo, .AckDevAuthenticationInfo, .GetDevAuthenticationSignatureV1, .GetDevAuthenticationSignatureV2, .RetDevAuthenticationSignature, .AckDevAuthenticationStatus, .GetiPodAuthenticationInfo, .RetiPodAuthenticationInfo, .AckiPodAuthenticationInfo, .GetiPodAuthenticationSignature, .RetiPodAuthenticationSignature, .AckiPodAuthenticationStatus, .NotifyiPodStateChange, .GetiPodOptions, .RetiPodOptions, .GetAccessoryInfo, .RetAccessoryInfo, .GetiPodPreferences, .RetiPodPreferences, .SetiPodPreferences, .GetUIMode, .RetUIMode, .SetUIMode, .StartIDPS, .SetFIDTokenValues, .RetFIDTokenValueACKs, .EndIDPS, .IDPSStatus, .OpenDataSessionForProtocol, .CloseDataSession, .DevACK, .DevDataTransfer, .IPodDataTransfer, .SetAccStatusNotification, .RetAccStatusNotification, .AccessoryStatusNotification, .SetEventNotification, .IPodNotification, .GetiPodOptionsForLingo, .RetiPodOptionsForLingo, .GetEventNotification, .RetEventNotification, .GetSupportedEventNotification, .CancelCommand, .RetSupportedEventNotification, .SetAvailableCurrent, .RequestApplicationLaunch, .GetNowPlayingFocusApp, .RetNowPlayingFocusApp]

/-- Field types of the message structs of lingo-general/general.go. -/
@[reducible] def GenT.schema : GenT → List FTy
  | .RequestIdentify => []  -- general.go:97
  | .ACK => [u8, u8]  -- general.go:108-111 Status CmdID
  | .ACKPending => [u8, u8, u32]  -- general.go:113-117 Status CmdID MaxWait
  | .ACKDataDropped => [u8, u8, u16, u32]  -- general.go:119-124 Status CmdID SessionID NumBytesDropped
  | .RequestRemoteUIMode => []  -- general.go:126
  | .ReturnRemoteUIMode => [u8]  -- general.go:128-130 Mode
  | .EnterRemoteUIMode => []  -- general.go:132
  | .ExitRemoteUIMode => []  -- general.go:134
  | .RequestiPodName => []  -- general.go:136
  | .ReturniPodName => [bytes]  -- general.go:138-140 Name
  | .RequestiPodSoftwareVersion => []  -- general.go:152
  | .ReturniPodSoftwareVersion => [u8, u8, u8]  -- general.go:154-158 Major Minor Rev
  | .RequestiPodSerialNum => []  -- general.go:159-160
  | .ReturniPodSerialNum => [bytes]  -- general.go:161-163 Serial
  | .RequestiPodModelNum => []  -- general.go:175-176
  | .ReturniPodModelNum => [u32, bytes]  -- general.go:177-180 ModelID Model
  | .RequestLingoProtocolVersion => [u8]  -- general.go:200-202 Lingo
  | .ReturnLingoProtocolVersion => [u8, u8, u8]  -- general.go:204-208 Lingo Major Minor
  | .RequestTransportMaxPayloadSize => []  -- general.go:210
  | .ReturnTransportMaxPayloadSize => [u16]  -- general.go:212-214 MaxPayload
  | .IdentifyDeviceLingoes => [u32, u32, u32]  -- general.go:245-249 Lingos Options DeviceID
  | .GetDevAuthenticationInfo => []  -- general.go:251
  | .RetDevAuthenticationInfo => [u8, u8, u8, u8, bytes]  -- general.go:258-264 Major Minor CertCurrentSection CertMaxSection CertData
  | .AckDevAuthenticationInfo => [u8]  -- general.go:292-294 Status
  | .GetDevAuthenticationSignatureV1 => [arr 16, u8]  -- general.go:295-298 Challenge Counter
  | .GetDevAuthenticationSignatureV2 => [arr 20, u8]  -- general.go:300-303 Challenge Counter
  | .RetDevAuthenticationSignature => [bytes]  -- general.go:305-307 Signature
  | .AckDevAuthenticationStatus => [u8]  -- general.go:322-324 Status
  | .GetiPodAuthenticationInfo => []  -- general.go:325
  | .RetiPodAuthenticationInfo => [u8, u8, u8, u8, bytes]  -- general.go:327-333 Major Minor CertCurrentSection CertMaxSection CertData
  | .AckiPodAuthenticationInfo => [u8]  -- general.go:334-336 Status
  | .GetiPodAuthenticationSignature => [arr 20, u8]  -- general.go:338-341 Challenge Counter
  | .RetiPodAuthenticationSignature => [arr 20]  -- general.go:342-344 Signature
  | .AckiPodAuthenticationStatus => [u8]  -- general.go:346-348 Status
  | .NotifyiPodStateChange => [u8]  -- general.go:349-351 StateChange
  | .GetiPodOptions => []  -- general.go:352
  | .RetiPodOptions => [u64]  -- general.go:354-356 Options
  | .GetAccessoryInfo => [u8]  -- general.go:358-360 InfoType
  | .RetAccessoryInfo => [u8, bytes]  -- general.go:375-378 InfoType Data
  | .GetiPodPreferences => [u8]  -- general.go:406-408 PrefClassID
  | .RetiPodPreferences => [u8, u8]  -- general.go:409-412 PrefClassID PrefClassSettingID
  | .SetiPodPreferences => [u8, u8, u8]  -- general.go:414-418 PrefClassID PrefClassSettingID RestoreOnExit
  | .GetUIMode => []  -- general.go:428
  | .RetUIMode => [u8]  -- general.go:429-431 UIMode
  | .SetUIMode => [u8]  -- general.go:433-435 UIMode
  | .StartIDPS => []  -- general.go:437
  | .SetFIDTokenValues => [fidTokens]  -- general.go:675-677 FIDTokenValues
  | .RetFIDTokenValueACKs => [fidAcks]  -- general.go:758-760 FIDTokenValueACKs
  | .EndIDPS => [u8]  -- general.go:807-809 AccEndIDPSStatus
  | .IDPSStatus => [u8]  -- general.go:819-821 Status
  | .OpenDataSessionForProtocol => [u16, u8]  -- general.go:823-826 SessionID ProtocolIndex
  | .CloseDataSession => [u16]  -- general.go:827-829 SessionID
  | .DevACK => [u8, u8]  -- general.go:830-833 AckStatus CmdID
  | .DevDataTransfer => [u16, bytes]  -- general.go:835-838 SessionID Data
  | .IPodDataTransfer => [u16, bytes]  -- general.go:839-842 SessionID Data
  | .SetAccStatusNotification => [u32]  -- general.go:843-845 StatusMask
  | .RetAccStatusNotification => [u32]  -- general.go:846-848 StatusMask
  | .AccessoryStatusNotification => [u8, bytes]  -- general.go:849-852 StatusType StatusParams
  | .SetEventNotification => [u64]  -- general.go:854-856 EventMask
  | .IPodNotification => [u8, bytes]  -- general.go:857-860 NotificationType Data
  | .GetiPodOptionsForLingo => [u8]  -- general.go:862-864 LingoID
  | .RetiPodOptionsForLingo => [u8, u64]  -- general.go:865-868 LingoID Options
  | .GetEventNotification => []  -- general.go:869
  | .RetEventNotification => [u64]  -- general.go:871-873 EventMask
  | .GetSupportedEventNotification => []  -- general.go:874
  | .CancelCommand => [u8, u16, u16]  -- general.go:876-880 LingoID CmdID TransactionID
  | .RetSupportedEventNotification => [u64]  -- general.go:881-883 EventMask
  | .SetAvailableCurrent => [u16]  -- general.go:884-886 CurrentLimit
  | .RequestApplicationLaunch => [u8, u8, u8, bytes]  -- general.go:887-892 Reserved0 Reserved1 Reserved2 AppID
  | .GetNowPlayingFocusApp => []  -- general.go:902
  | .RetNowPlayingFocusApp => [bytes]  -- general.go:904-906 AppID

/-- Command ids in `lingo-general.Lingos` (tags `id:"..."`). See lingo-general/general.go:19-95. -/
def GenT.cmdID : GenT → UInt16
  | .RequestIdentify => 0x00  -- 20
  | .ACK => 0x02  -- 21
  | .ACKPending => 0x02  -- 22
  | .ACKDataDropped => 0x02  -- 23
  | .RequestRemoteUIMode => 0x03  -- 24
  | .ReturnRemoteUIMode => 0x04  -- 25
  | .EnterRemoteUIMode => 0x05  -- 26
  | .ExitRemoteUIMode => 0x06  -- 27
  | .RequestiPodName => 0x07  -- 28
  | .ReturniPodName => 0x08  -- 29
  | .RequestiPodSoftwareVersion => 0x09  -- 30
  | .ReturniPodSoftwareVersion => 0x0A  -- 31
  | .RequestiPodSerialNum => 0x0B  -- 32
  | .ReturniPodSerialNum => 0x0C  -- 33
  | .RequestiPodModelNum => 0x0D  -- 34
  | .ReturniPodModelNum => 0x0E  -- 35
  | .RequestLingoProtocolVersion => 0x0F  -- 36
  | .ReturnLingoProtocolVersion => 0x10  -- 37
  | .RequestTransportMaxPayloadSize => 0x11  -- 38
  | .ReturnTransportMaxPayloadSize => 0x12  -- 39
  | .IdentifyDeviceLingoes => 0x13  -- 40
  | .GetDevAuthenticationInfo => 0x14  -- 41
  | .RetDevAuthenticationInfo => 0x15  -- 44
  | .AckDevAuthenticationInfo => 0x16  -- 45
  | .GetDevAuthenticationSignatureV1 => 0x17  -- 46
  | .GetDevAuthenticationSignatureV2 => 0x17  -- 47
  | .RetDevAuthenticationSignature => 0x18  -- 50
  | .AckDevAuthenticationStatus => 0x19  -- 51
  | .GetiPodAuthenticationInfo => 0x1A  -- 52
  | .RetiPodAuthenticationInfo => 0x1B  -- 53
  | .AckiPodAuthenticationInfo => 0x1C  -- 54
  | .GetiPodAuthenticationSignature => 0x1D  -- 55
  | .RetiPodAuthenticationSignature => 0x1E  -- 56
  | .AckiPodAuthenticationStatus => 0x1F  -- 57
  | .NotifyiPodStateChange => 0x23  -- 58
  | .GetiPodOptions => 0x24  -- 59
  | .RetiPodOptions => 0x25  -- 60
  | .GetAccessoryInfo => 0x27  -- 61
  | .RetAccessoryInfo => 0x28  -- 62
  | .GetiPodPreferences => 0x29  -- 63
  | .RetiPodPreferences => 0x2A  -- 64
  | .SetiPodPreferences => 0x2B  -- 65
  | .GetUIMode => 0x35  -- 66
  | .RetUIMode => 0x36  -- 67
  | .SetUIMode => 0x37  -- 68
  | .StartIDPS => 0x38  -- 69
  | .SetFIDTokenValues => 0x39  -- 70
  | .RetFIDTokenValueACKs => 0x3A  -- 71
  | .EndIDPS => 0x3B  -- 72
  | .IDPSStatus => 0x3C  -- 73
  | .OpenDataSessionForProtocol => 0x3F  -- 74
  | .CloseDataSession => 0x40  -- 75
  | .DevACK => 0x41  -- 76
  | .DevDataTransfer => 0x42  -- 77
  | .IPodDataTransfer => 0x43  -- 78
  | .SetAccStatusNotification => 0x46  -- 79
  | .RetAccStatusNotification => 0x47  -- 80
  | .AccessoryStatusNotification => 0x48  -- 81
  | .SetEventNotification => 0x49  -- 82
  | .IPodNotification => 0x4A  -- 83
  | .GetiPodOptionsForLingo => 0x4B  -- 84
  | .RetiPodOptionsForLingo => 0x4C  -- 85
  | .GetEventNotification => 0x4D  -- 86
  | .RetEventNotification => 0x4E  -- 87
  | .GetSupportedEventNotification => 0x4F  -- 88
  | .CancelCommand => 0x50  -- 89
  | .RetSupportedEventNotification => 0x51  -- 90
  | .SetAvailableCurrent => 0x54  -- 91
  | .RequestApplicationLaunch => 0x64  -- 92
  | .GetNowPlayingFocusApp => 0x65  -- 93
  | .RetNowPlayingFocusApp => 0x66  -- 94

/-- Message types of lingo-extremote/extremote.go (`Lingos`, lines 16-79). -/
inductive ExtT where
  | ACK
  | GetCurrentPlayingTrackChapterInfo
  | ReturnCurrentPlayingTrackChapterInfo
  | SetCurrentPlayingTrackChapter
  | GetCurrentPlayingTrackChapterPlayStatus
  | ReturnCurrentPlayingTrackChapterPlayStatus
  | GetCurrentPlayingTrackChapterName
  | ReturnCurrentPlayingTrackChapterName
  | GetAudiobookSpeed
  | ReturnAudiobookSpeed
  | SetAudiobookSpeed
  | GetIndexedPlayingTrackInfo
  | ReturnIndexedPlayingTrackInfo
  | GetArtworkFormats
  | RetArtworkFormats
  | GetTrackArtworkData
  | RetTrackArtworkData
  | ResetDBSelection
  | SelectDBRecord
  | GetNumberCategorizedDBRecords
  | ReturnNumberCategorizedDBRecords
  | RetrieveCategorizedDatabaseRecords
  | ReturnCategorizedDatabaseRecord
  | GetPlayStatus
  | ReturnPlayStatus
  | GetCurrentPlayingTrackIndex
  | ReturnCurrentPlayingTrackIndex
  | GetIndexedPlayingTrackTitle
  | ReturnIndexedPlayingTrackTitle
  | GetIndexedPlayingTrackArtistName
  | ReturnIndexedPlayingTrackArtistName
  | GetIndexedPlayingTrackAlbumName
  | ReturnIndexedPlayingTrackAlbumName
  | SetPlayStatusChangeNotification
  | SetPlayStatusChangeNotificationShort
  | PlayStatusChangeNotification
  | PlayCurrentSelection
  | PlayControl
  | GetTrackArtworkTimes
  | RetTrackArtworkTimes
  | GetShuffle
  | ReturnShuffle
  | SetShuffle
  | GetRepeat
  | ReturnRepeat
  | SetRepeat
  | SetDisplayImage
  | GetMonoDisplayImageLimits
  | ReturnMonoDisplayImageLimits
  | GetNumPlayingTracks
  | ReturnNumPlayingTracks
  | SetCurrentPlayingTrack
  | SelectSortDBRecord
  | GetColorDisplayImageLimits
  | ReturnColorDisplayImageLimits
  | ResetDBSelectionHierarchy
  | GetDBiTunesInfo
  | RetDBiTunesInfo
  | GetUIDTrackInfo
  | RetUIDTrackInfo
  | GetDBTrackInfo
  | RetDBTrackInfo
  | GetPBTrackInfo
  | RetPBTrackInfo
deriving DecidableEq, Repr

/-- All of them, in the order of `Lingos`. See lingo-extremote/extremote.go:15-80. -/
def ExtT.all : List ExtT := [.ACK, .GetCurrentPlayingTrackChapterInfo, .ReturnCurrentPlayingTrackChapterInfo, .SetCurrentPlayingTrackChapter, .GetCurrentPlayingTrackChapterPlayStatus, .ReturnCurrentPlayingTrackChapterPlayStatus, .GetCurrentPlayingTrackChapterName, .ReturnCurrentPlayingTrackChapterName, .GetAudiobookSpeed, .ReturnAudiobookSpeed, .SetAudiobookSpeed, .GetIndexedPlayingTrackInfo, .ReturnIndexedPlayingTrackInfo, .GetArtworkFormats, .RetArtworkFormats, .GetTrackArtworkData, .RetTrackArtworkData, .ResetDBSelection, .SelectDBRecord, .GetNumberCategorizedDBRecords, .ReturnNumberCategorizedDBRecords, .RetrieveCategorizedDatabaseRecords, .ReturnCategorizedDatabaseRecord, .GetPlayStatus, .ReturnPlayStatus, .GetCurrentPlayingTrackIndex, .ReturnCurrentPlayingTrackIndex, .GetIndexedPlayingTrackTitle, .ReturnIndexedPlayingTrackTitle, .GetIndexedPlayingTrackArtistName, .ReturnIndexedPlayingTrackArtistName, .GetIndexedPlayingTrackAlbumName, .ReturnIndexedPlayingTrackAlbumName, .SetPlayStatusChangeNotification, .SetPlayStatusChangeNotificationShort, .PlayStatusChangeNotification, .PlayCurrentSelection, .PlayControl, .GetTrackArtworkTimes, .RetTrackArtworkTimes, .GetShuffle, .ReturnShuffle, .SetShuffle, .GetRepeat, .ReturnRepeat, .SetRepeat, .SetDisplayImage, .GetMonoDisplayImageLimits, .ReturnMonoDisplayImageLimits, .GetNumPlayingTracks, .ReturnNumPlayingTracks, .SetCurrentPlayingTrack, .SelectSortDBRecord, .GetColorDisplayImageLimits, .ReturnColorDisplayImageLimits, .ResetDBSelectionHierarchy, .GetDBiTunesInfo, .RetDBiTunesInfo, .GetUIDTrackInfo, .RetUIDTrackInfo, .GetDBTrackInfo, .RetDBTrackInfo, .GetPBTrackInfo, .RetPBTrackInfo]

/-- Field types of the message structs of lingo-extremote/extremote.go. -/
@[reducible] def ExtT.schema : ExtT → List FTy
  | .ACK => [u8, u16]  -- extremote.go:89-92 Status CmdID
  | .GetCurrentPlayingTrackChapterInfo => []  -- extremote.go:93-94
  | .ReturnCurrentPlayingTrackChapterInfo => [i32, i32]  -- extremote.go:95-98 CurrentChapterIndex ChapterCount
  | .SetCurrentPlayingTrackChapter => [i32]  -- extremote.go:99-101 ChapterIndex
  | .GetCurrentPlayingTrackChapterPlayStatus => [i32]  -- extremote.go:102-104 CurrentChapterIndex
  | .ReturnCurrentPlayingTrackChapterPlayStatus => [u32, u32]  -- extremote.go:105-108 ChapterLength ChapterPosition
  | .GetCurrentPlayingTrackChapterName => [i32]  -- extremote.go:109-111 ChapterIndex
  | .ReturnCurrentPlayingTrackChapterName => [bytes]  -- extremote.go:112-114 ChapterName
  | .GetAudiobookSpeed => []  -- extremote.go:115-116
  | .ReturnAudiobookSpeed => [u8]  -- extremote.go:118-120 Speed
  | .SetAudiobookSpeed => [u8]  -- extremote.go:121-123 Speed
  | .GetIndexedPlayingTrackInfo => [u8, i32, i16]  -- extremote.go:154-158 InfoType TrackIndex ChapterIndex
  | .ReturnIndexedPlayingTrackInfo => [u8, extInfo]  -- extremote.go:159-162 InfoType Info
  | .GetArtworkFormats => []  -- extremote.go:195-196
  | .RetArtworkFormats => [artworks]  -- extremote.go:204-206 Formats
  | .GetTrackArtworkData => [i32, u16, u32]  -- extremote.go:233-237 TrackIndex FormatID Offset
  | .RetTrackArtworkData => [u16, u8, u16, u16, u16, u16, u16, u16, u32, bytes]  -- extremote.go:238-250 PacketIndex PixelFormat ImageWidth ImageHeight TopLeftX TopLeftY BottomRightX BottomRightY RowSize Data
  | .ResetDBSelection => []  -- extremote.go:253-254
  | .SelectDBRecord => [u8, i32]  -- extremote.go:270-273 CategoryType RecordIndex
  | .GetNumberCategorizedDBRecords => [u8]  -- extremote.go:274-276 CategoryType
  | .ReturnNumberCategorizedDBRecords => [i32]  -- extremote.go:277-279 RecordCount
  | .RetrieveCategorizedDatabaseRecords => [u8, u32, i32]  -- extremote.go:280-284 CategoryType Offset Count
  | .ReturnCategorizedDatabaseRecord => [u32, arr 16]  -- extremote.go:285-288 RecordCategoryIndex String
  | .GetPlayStatus => []  -- extremote.go:289-290
  | .ReturnPlayStatus => [u32, u32, u8]  -- extremote.go:301-305 TrackLength TrackPosition State
  | .GetCurrentPlayingTrackIndex => []  -- extremote.go:307-308
  | .ReturnCurrentPlayingTrackIndex => [i32]  -- extremote.go:309-311 TrackIndex
  | .GetIndexedPlayingTrackTitle => [i32]  -- extremote.go:312-314 TrackIndex
  | .ReturnIndexedPlayingTrackTitle => [bytes]  -- extremote.go:315-317 Title
  | .GetIndexedPlayingTrackArtistName => [i32]  -- extremote.go:329-331 TrackIndex
  | .ReturnIndexedPlayingTrackArtistName => [bytes]  -- extremote.go:332-334 ArtistName
  | .GetIndexedPlayingTrackAlbumName => [i32]  -- extremote.go:346-348 TrackIndex
  | .ReturnIndexedPlayingTrackAlbumName => [bytes]  -- extremote.go:349-351 AlbumName
  | .SetPlayStatusChangeNotification => [u32]  -- extremote.go:363-365 EventMask
  | .SetPlayStatusChangeNotificationShort => [bool]  -- extremote.go:369-371 Enabled
  | .PlayStatusChangeNotification => [u8]  -- extremote.go:372-374 Status
  | .PlayCurrentSelection => [i32]  -- extremote.go:375-377 SelectedTrackIndex
  | .PlayControl => [u8]  -- extremote.go:397-399 Cmd
  | .GetTrackArtworkTimes => [i32, u16, u16, i16]  -- extremote.go:400-405 TrackIndex FormatID ArtworkIndex ArtworkCount
  | .RetTrackArtworkTimes => []  -- extremote.go:406-408
  | .GetShuffle => []  -- extremote.go:418-419
  | .ReturnShuffle => [u8]  -- extremote.go:420-422 Mode
  | .SetShuffle => [u8]  -- extremote.go:423-426 Mode
  | .GetRepeat => []  -- extremote.go:436-437
  | .ReturnRepeat => [u8]  -- extremote.go:438-440 Mode
  | .SetRepeat => [u8]  -- extremote.go:441-444 Mode
  | .SetDisplayImage => []  -- extremote.go:445-447
  | .GetMonoDisplayImageLimits => []  -- extremote.go:448-449
  | .ReturnMonoDisplayImageLimits => [u16, u16, u8]  -- extremote.go:450-454 MaxWidth MaxHeight PixelFormat
  | .GetNumPlayingTracks => []  -- extremote.go:455-456
  | .ReturnNumPlayingTracks => [u32]  -- extremote.go:457-459 NumTracks
  | .SetCurrentPlayingTrack => [i32]  -- extremote.go:460-462 TrackIndex
  | .SelectSortDBRecord => [u8, i32, u8]  -- extremote.go:463-467 CategoryType RecordIndex SortType
  | .GetColorDisplayImageLimits => []  -- extremote.go:468-469
  | .ReturnColorDisplayImageLimits => [u16, u16, u8]  -- extremote.go:470-474 MaxWidth MaxHeight PixelFormat
  | .ResetDBSelectionHierarchy => [u8]  -- extremote.go:476-478 Selection
  | .GetDBiTunesInfo => []  -- extremote.go:479-480
  | .RetDBiTunesInfo => []  -- extremote.go:481-482
  | .GetUIDTrackInfo => []  -- extremote.go:483-484
  | .RetUIDTrackInfo => []  -- extremote.go:485-486
  | .GetDBTrackInfo => []  -- extremote.go:488-489
  | .RetDBTrackInfo => []  -- extremote.go:490-491
  | .GetPBTrackInfo => []  -- extremote.go:492-493
  | .RetPBTrackInfo => []  -- extremote.go:494-495

/-- Command ids in `lingo-extremote.Lingos` (tags `id:"..."`). See lingo-extremote/extremote.go:15-80. -/
def ExtT.cmdID : ExtT → UInt16
  | .ACK => 0x0001  -- 16
  | .GetCurrentPlayingTrackChapterInfo => 0x0002  -- 17
  | .ReturnCurrentPlayingTrackChapterInfo => 0x0003  -- 18
  | .SetCurrentPlayingTrackChapter => 0x0004  -- 19
  | .GetCurrentPlayingTrackChapterPlayStatus => 0x0005  -- 20
  | .ReturnCurrentPlayingTrackChapterPlayStatus => 0x0006  -- 21
  | .GetCurrentPlayingTrackChapterName => 0x0007  -- 22
  | .ReturnCurrentPlayingTrackChapterName => 0x0008  -- 23
  | .GetAudiobookSpeed => 0x0009  -- 24
  | .ReturnAudiobookSpeed => 0x000A  -- 25
  | .SetAudiobookSpeed => 0x000B  -- 26
  | .GetIndexedPlayingTrackInfo => 0x000C  -- 27
  | .ReturnIndexedPlayingTrackInfo => 0x000D  -- 28
  | .GetArtworkFormats => 0x000E  -- 29
  | .RetArtworkFormats => 0x000F  -- 30
  | .GetTrackArtworkData => 0x0010  -- 31
  | .RetTrackArtworkData => 0x0011  -- 32
  | .ResetDBSelection => 0x0016  -- 33
  | .SelectDBRecord => 0x0017  -- 34
  | .GetNumberCategorizedDBRecords => 0x0018  -- 35
  | .ReturnNumberCategorizedDBRecords => 0x0019  -- 36
  | .RetrieveCategorizedDatabaseRecords => 0x001A  -- 37
  | .ReturnCategorizedDatabaseRecord => 0x001B  -- 38
  | .GetPlayStatus => 0x001C  -- 39
  | .ReturnPlayStatus => 0x001D  -- 40
  | .GetCurrentPlayingTrackIndex => 0x001E  -- 41
  | .ReturnCurrentPlayingTrackIndex => 0x001F  -- 42
  | .GetIndexedPlayingTrackTitle => 0x0020  -- 43
  | .ReturnIndexedPlayingTrackTitle => 0x0021  -- 44
  | .GetIndexedPlayingTrackArtistName => 0x0022  -- 45
  | .ReturnIndexedPlayingTrackArtistName => 0x0023  -- 46
  | .GetIndexedPlayingTrackAlbumName => 0x0024  -- 47
  | .ReturnIndexedPlayingTrackAlbumName => 0x0025  -- 48
  | .SetPlayStatusChangeNotification => 0x0026  -- 49
  | .SetPlayStatusChangeNotificationShort => 0x0026  -- 50
  | .PlayStatusChangeNotification => 0x0027  -- 51
  | .PlayCurrentSelection => 0x0028  -- 52
  | .PlayControl => 0x0029  -- 53
  | .GetTrackArtworkTimes => 0x002A  -- 54
  | .RetTrackArtworkTimes => 0x002B  -- 55
  | .GetShuffle => 0x002C  -- 56
  | .ReturnShuffle => 0x002D  -- 57
  | .SetShuffle => 0x002E  -- 58
  | .GetRepeat => 0x002F  -- 59
  | .ReturnRepeat => 0x0030  -- 60
  | .SetRepeat => 0x0031  -- 61
  | .SetDisplayImage => 0x0032  -- 62
  | .GetMonoDisplayImageLimits => 0x0033  -- 63
  | .ReturnMonoDisplayImageLimits => 0x0034  -- 64
  | .GetNumPlayingTracks => 0x0035  -- 65
  | .ReturnNumPlayingTracks => 0x0036  -- 66
  | .SetCurrentPlayingTrack => 0x0037  -- 67
  | .SelectSortDBRecord => 0x0038  -- 68
  | .GetColorDisplayImageLimits => 0x0039  -- 69
  | .ReturnColorDisplayImageLimits => 0x003A  -- 70
  | .ResetDBSelectionHierarchy => 0x003B  -- 71
  | .GetDBiTunesInfo => 0x003C  -- 72
  | .RetDBiTunesInfo => 0x003D  -- 73
  | .GetUIDTrackInfo => 0x003E  -- 74
  | .RetUIDTrackInfo => 0x003F  -- 75
  | .GetDBTrackInfo => 0x0040  -- 76
  | .RetDBTrackInfo => 0x0041  -- 77
  | .GetPBTrackInfo => 0x0042  -- 78
  | .RetPBTrackInfo => 0x0043  -- 79

/-- Message types of lingo-dispremote/dispremote.go (`Lingos`, lines 16-48). -/
inductive DispT where
  | ACK
  | GetCurrentEQProfileIndex
  | RetCurrentEQProfileIndex
  | SetCurrentEQProfileIndex
  | GetNumEQProfiles
  | RetNumEQProfiles
  | GetIndexedEQProfileName
  | RetIndexedEQProfileName
  | SetRemoteEventNotification
  | RemoteEventNotification
  | GetRemoteEventStatus
  | RetRemoteEventStatus
  | GetiPodStateInfo
  | RetiPodStateInfo
  | SetiPodStateInfo
  | GetPlayStatus
  | RetPlayStatus
  | SetCurrentPlayingTrack
  | GetIndexedPlayingTrackInfo
  | RetIndexedPlayingTrackInfo
  | GetNumPlayingTracks
  | RetNumPlayingTracks
  | GetArtworkFormats
  | RetArtworkFormats
  | GetTrackArtworkData
  | RetTrackArtworkData
  | GetPowerBatteryState
  | RetPowerBatteryState
  | GetSoundCheckState
  | RetSoundCheckState
  | SetSoundCheckState
  | GetTrackArtworkTimes
  | RetTrackArtworkTimes
deriving DecidableEq, Repr

/-- All of them, in the order of `Lingos`. See lingo-dispremote/dispremote.go:15-49. -/
def DispT.all : List DispT := [.ACK, .GetCurrentEQProfileIndex, .RetCurrentEQProfileIndex, .SetCurrentEQProfileIndex, .GetNumEQProfiles, .RetNumEQProfiles, .GetIndexedEQProfileName, .RetIndexedEQProfileName, .SetRemoteEventNotification, .RemoteEventNotification, .GetRemoteEventStatus, .RetRemoteEventStatus, .GetiPodStateInfo, .RetiPodStateInfo, .SetiPodStateInfo, .GetPlayStatus, .RetPlayStatus, .SetCurrentPlayingTrack, .GetIndexedPlayingTrackInfo, .RetIndexedPlayingTrackInfo, .GetNumPlayingTracks, .RetNumPlayingTracks, .GetArtworkFormats, .RetArtworkFormats, .GetTrackArtworkData, .RetTrackArtworkData, .GetPowerBatteryState, .RetPowerBatteryState, .GetSoundCheckState, .RetSoundCheckState, .SetSoundCheckState, .GetTrackArtworkTimes, .RetTrackArtworkTimes]

/-- Field types of the message structs of lingo-dispremote/dispremote.go. -/
@[reducible] def DispT.schema : DispT → List FTy
  | .ACK => [u8, u8]  -- dispremote.go:58-61 Status CmdID
  | .GetCurrentEQProfileIndex => []  -- dispremote.go:62-63
  | .RetCurrentEQProfileIndex => [u32]  -- dispremote.go:64-66 CurrentEQIndex
  | .SetCurrentEQProfileIndex => [u32, bool]  -- dispremote.go:67-70 CurrentEQIndex RestoreOnExit
  | .GetNumEQProfiles => []  -- dispremote.go:71-72
  | .RetNumEQProfiles => [u32]  -- dispremote.go:73-75 NumEQProfiles
  | .GetIndexedEQProfileName => [u32]  -- dispremote.go:76-78 EQProfileIndex
  | .RetIndexedEQProfileName => [bytes]  -- dispremote.go:79-81 EQProfileName
  | .SetRemoteEventNotification => [u32]  -- dispremote.go:82-84 EventMask
  | .RemoteEventNotification => [u8, bytes]  -- dispremote.go:85-88 EventNum EventData
  | .GetRemoteEventStatus => []  -- dispremote.go:89-90
  | .RetRemoteEventStatus => [u32]  -- dispremote.go:91-93 EventStatus
  | .GetiPodStateInfo => [u8]  -- dispremote.go:190-192 InfoType
  | .RetiPodStateInfo => [u8, dispState]  -- dispremote.go:193-196 InfoType InfoData
  | .SetiPodStateInfo => [u8, u8]  -- dispremote.go:247-250 InfoType InfoData
  | .GetPlayStatus => []  -- dispremote.go:251-252
  | .RetPlayStatus => [u8, u32, u32, u32]  -- dispremote.go:253-258 PlayState TrackIndex TrackLength TrackPos
  | .SetCurrentPlayingTrack => [u32]  -- dispremote.go:259-261 TrackIndex
  | .GetIndexedPlayingTrackInfo => [u8, u32, u16]  -- dispremote.go:278-282 InfoType TrackIndex ChapterIndex
  | .RetIndexedPlayingTrackInfo => [u8, dispTrack]  -- dispremote.go:317-320 InfoType InfoData
  | .GetNumPlayingTracks => []  -- dispremote.go:374-375
  | .RetNumPlayingTracks => [u32]  -- dispremote.go:376-378 NumPlayTracks
  | .GetArtworkFormats => []  -- dispremote.go:379-380
  | .RetArtworkFormats => [artworks]  -- dispremote.go:388-390 Formats
  | .GetTrackArtworkData => [u32, u16, u32]  -- dispremote.go:391-395 TrackIndex FormatID TimeOffset
  | .RetTrackArtworkData => []  -- dispremote.go:396-398
  | .GetPowerBatteryState => []  -- dispremote.go:399-400
  | .RetPowerBatteryState => [u8, u8]  -- dispremote.go:401-404 PowerState BatteryLevel
  | .GetSoundCheckState => []  -- dispremote.go:405-406
  | .RetSoundCheckState => [bool]  -- dispremote.go:407-409 Enabled
  | .SetSoundCheckState => [bool, bool]  -- dispremote.go:410-413 Enabled RestoreOnExit
  | .GetTrackArtworkTimes => [u32, u16, u16, u16]  -- dispremote.go:414-419 TrackIndex FormatID ArtworkIndex ArtworkCount
  | .RetTrackArtworkTimes => [u32s]  -- dispremote.go:420-422 TimeOffset

/-- Command ids in `lingo-dispremote.Lingos` (tags `id:"..."`). See lingo-dispremote/dispremote.go:15-49. -/
def DispT.cmdID : DispT → UInt16
  | .ACK => 0x00  -- 16
  | .GetCurrentEQProfileIndex => 0x01  -- 17
  | .RetCurrentEQProfileIndex => 0x02  -- 18
  | .SetCurrentEQProfileIndex => 0x03  -- 19
  | .GetNumEQProfiles => 0x04  -- 20
  | .RetNumEQProfiles => 0x05  -- 21
  | .GetIndexedEQProfileName => 0x06  -- 22
  | .RetIndexedEQProfileName => 0x07  -- 23
  | .SetRemoteEventNotification => 0x08  -- 24
  | .RemoteEventNotification => 0x09  -- 25
  | .GetRemoteEventStatus => 0x0A  -- 26
  | .RetRemoteEventStatus => 0x0B  -- 27
  | .GetiPodStateInfo => 0x0C  -- 28
  | .RetiPodStateInfo => 0x0D  -- 29
  | .SetiPodStateInfo => 0x0E  -- 30
  | .GetPlayStatus => 0x0F  -- 31
  | .RetPlayStatus => 0x10  -- 32
  | .SetCurrentPlayingTrack => 0x11  -- 33
  | .GetIndexedPlayingTrackInfo => 0x12  -- 34
  | .RetIndexedPlayingTrackInfo => 0x13  -- 35
  | .GetNumPlayingTracks => 0x14  -- 36
  | .RetNumPlayingTracks => 0x15  -- 37
  | .GetArtworkFormats => 0x16  -- 38
  | .RetArtworkFormats => 0x17  -- 39
  | .GetTrackArtworkData => 0x18  -- 40
  | .RetTrackArtworkData => 0x19  -- 41
  | .GetPowerBatteryState => 0x1A  -- 42
  | .RetPowerBatteryState => 0x1B  -- 43
  | .GetSoundCheckState => 0x1C  -- 44
  | .RetSoundCheckState => 0x1D  -- 45
  | .SetSoundCheckState => 0x1E  -- 46
  | .GetTrackArtworkTimes => 0x1F  -- 47
  | .RetTrackArtworkTimes => 0x20  -- 48

/-- Message types of lingo-audio/audio.go (`Lingos`, lines 15-20). -/
inductive AudT where
  | AccAck
  | iPodAck
  | GetAccSampleRateCaps
  | RetAccSampleRateCaps
  | TrackNewAudioAttributes
  | SetVideoDelay
deriving DecidableEq, Repr

/-- All of them, in the order of `Lingos`. See lingo-audio/audio.go:14-21. -/
def AudT.all : List AudT := [.AccAck, .iPodAck, .GetAccSampleRateCaps, .RetAccSampleRateCaps, .TrackNewAudioAttributes, .SetVideoDelay]

/-- Field types of the message structs of lingo-audio/audio.go. -/
@[reducible] def AudT.schema : AudT → List FTy
  | .AccAck => [u8, u8]  -- audio.go:29-32 Status CmdID
  | .iPodAck => [u8, u8]  -- audio.go:33-36 Status CmdID
  | .GetAccSampleRateCaps => []  -- audio.go:37-38
  | .RetAccSampleRateCaps => [u32s]  -- audio.go:39-41 SampleRates
  | .TrackNewAudioAttributes => [u32, u32, u32]  -- audio.go:54-58 SampleRate SoundCheckValue VolumeAdjustment
  | .SetVideoDelay => [u32]  -- audio.go:59-61 Delay

/-- Command ids in `lingo-audio.Lingos` (tags `id:"..."`). See lingo-audio/audio.go:14-21. -/
def AudT.cmdID : AudT → UInt16
  | .AccAck => 0x00  -- 15
  | .iPodAck => 0x01  -- 16
  | .GetAccSampleRateCaps => 0x02  -- 17
  | .RetAccSampleRateCaps => 0x03  -- 18
  | .TrackNewAudioAttributes => 0x04  -- 19
  | .SetVideoDelay => 0x05  -- 20

/-- Message types of lingo-simpleremote/simpleremote.go (`Lingos`, lines 17-37). -/
inductive SimT where
  | ContextButtonStatus
  | ACK
  | VideoButtonStatus
  | AudioButtonStatus
  | iPodOutButtonStatus
  | RotationInputStatus
  | RadioButtonStatus
  | CameraButtonStatus
  | RegisterDescriptor
  | SendHIDReportToiPod
  | SendHIDReportToAcc
  | UnregisterDescriptor
  | AccessibilityEvent
  | GetAccessibilityParameter
  | RetAccessibilityParameter
  | SetAccessibilityParameter
  | GetCurrentItemProperty
  | RetCurrentItemProperty
  | SetContext
  | AccParameterChanged
  | DevACK
deriving DecidableEq, Repr

/-- All of them, in the order of `Lingos`. See lingo-simpleremote/simpleremote.go:16-38. -/
def SimT.all : List SimT := [.ContextButtonStatus, .ACK, .VideoButtonStatus, .AudioButtonStatus, .iPodOutButtonStatus, .RotationInputStatus, .RadioButtonStatus, .CameraButtonStatus, .RegisterDescriptor, .SendHIDReportToiPod, .SendHIDReportToAcc, .UnregisterDescriptor, .AccessibilityEvent, .GetAccessibilityParameter, .RetAccessibilityParameter, .SetAccessibilityParameter, .GetCurrentItemProperty, .RetCurrentItemProperty, .SetContext, .AccParameterChanged, .DevACK]

/-- Field types of the message structs of lingo-simpleremote/simpleremote.go. -/
@[reducible] def SimT.schema : SimT → List FTy
  | .ContextButtonStatus => [u32, blank]  -- simpleremote.go:117-120 State _
  | .ACK => []  -- simpleremote.go:136
  | .VideoButtonStatus => [u32, blank]  -- simpleremote.go:137-139 ButtonStates
  | .AudioButtonStatus => [u32, blank]  -- simpleremote.go:140-142 ButtonStates
  | .iPodOutButtonStatus => [u8]  -- simpleremote.go:143-146 ButtonSource
  | .RotationInputStatus => []  -- simpleremote.go:148
  | .RadioButtonStatus => []  -- simpleremote.go:149
  | .CameraButtonStatus => []  -- simpleremote.go:150
  | .RegisterDescriptor => []  -- simpleremote.go:151
  | .SendHIDReportToiPod => []  -- simpleremote.go:152
  | .SendHIDReportToAcc => []  -- simpleremote.go:153
  | .UnregisterDescriptor => []  -- simpleremote.go:154
  | .AccessibilityEvent => []  -- simpleremote.go:155
  | .GetAccessibilityParameter => []  -- simpleremote.go:156
  | .RetAccessibilityParameter => []  -- simpleremote.go:157
  | .SetAccessibilityParameter => []  -- simpleremote.go:158
  | .GetCurrentItemProperty => []  -- simpleremote.go:159
  | .RetCurrentItemProperty => []  -- simpleremote.go:160
  | .SetContext => []  -- simpleremote.go:161
  | .AccParameterChanged => []  -- simpleremote.go:162
  | .DevACK => []  -- simpleremote.go:163

/-- Command ids in `lingo-simpleremote.Lingos` (tags `id:"..."`). See lingo-simpleremote/simpleremote.go:16-38. -/
def SimT.cmdID : SimT → UInt16
  | .ContextButtonStatus => 0x00  -- 17
  | .ACK => 0x01  -- 18
  | .VideoButtonStatus => 0x03  -- 19
  | .AudioButtonStatus => 0x04  -- 20
  | .iPodOutButtonStatus => 0x0B  -- 21
  | .RotationInputStatus => 0x0C  -- 22
  | .RadioButtonStatus => 0x0D  -- 23
  | .CameraButtonStatus => 0x0E  -- 24
  | .RegisterDescriptor => 0x0F  -- 25
  | .SendHIDReportToiPod => 0x10  -- 26
  | .SendHIDReportToAcc => 0x11  -- 27
  | .UnregisterDescriptor => 0x12  -- 28
  | .AccessibilityEvent => 0x13  -- 29
  | .GetAccessibilityParameter => 0x14  -- 30
  | .RetAccessibilityParameter => 0x15  -- 31
  | .SetAccessibilityParameter => 0x16  -- 32
  | .GetCurrentItemProperty => 0x17  -- 33
  | .RetCurrentItemProperty => 0x18  -- 34
  | .SetContext => 0x19  -- 35
  | .AccParameterChanged => 0x1A  -- 36
  | .DevACK => 0x81  -- 37

/-- A registered message type. See lingo.go:90-96. -/
inductive TypeId where
  | gen (t : GenT)
  | ext (t : ExtT)
  | disp (t : DispT)
  | aud (t : AudT)
  | sim (t : SimT)
deriving DecidableEq, Repr

/-- The fields of a message, by package: lingo-general/general.go, lingo-extremote/extremote.go, lingo-dispremote/dispremote.go,
lingo-audio/audio.go and lingo-simpleremote/simpleremote.go, with the lines given at each message above. -/
@[reducible] def TypeId.schema : TypeId → List FTy
  | .gen t => t.schema
  | .ext t => t.schema
  | .disp t => t.schema
  | .aud t => t.schema
  | .sim t => t.schema

/-- The values of a message struct. See lingo.go:162. -/
abbrev TypeId.Val (t : TypeId) : Type := SVal t.schema

/-- All message types in registration order (package `init` order of the imports of cmd/ipod/main.go:16-22;
immaterial, as the lingos differ). -/
def TypeId.all : List TypeId :=
  AudT.all.map .aud ++
  DispT.all.map .disp ++
  ExtT.all.map .ext ++
  GenT.all.map .gen ++
  SimT.all.map .sim

end Ipod
