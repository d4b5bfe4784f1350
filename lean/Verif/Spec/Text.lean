import Verif.Spec.Registry
import Verif.Go.Format

/-! Specification of the texts: numbers, names of enumeration values, masks, ids, the listing of commands. -/

namespace Spec
open Go

/-- Value of a decimal or lower-case hexadecimal digit. -/
def digitVal (c : UInt8) : Option Nat :=
  if 0x30 ≤ c.toNat ∧ c.toNat ≤ 0x39 then some (c.toNat - 0x30)
  else if 0x61 ≤ c.toNat ∧ c.toNat ≤ 0x66 then some (c.toNat - 0x61 + 10)
  else none

/-- `s` is a number of `base` written with digits, the value is `n`. -/
inductive Numeral (base : Nat) : Bytes → Nat → Prop
  | nil : Numeral base [] 0
  | snoc {s n c d} : Numeral base s n → digitVal c = some d → d < base → Numeral base (s ++ [c]) (n * base + d)

/-- The text of `n` in `base` with at least `w` digits: leading zeros only up to `w` digits. -/
def NumberText (base w n : Nat) (s : Bytes) : Prop :=
  Numeral base s n ∧ w ≤ s.length ∧ (w < s.length → s.head? ≠ some 0x30)

/-- The text of the enumeration value `n`: its name in the table, or the type and the number. -/
inductive EnumText (tbl : List (Nat × String)) (ty : String) (n : Nat) : Bytes → Prop
  | named {name} : (n, name) ∈ tbl → EnumText tbl ty n (ascii name)
  | unnamed {d} : (∀ x ∈ tbl, x.1 ≠ n) → NumberText 10 1 n d → EnumText tbl ty n (ascii ty ++ ascii "(" ++ d ++ ascii ")")

/-- Texts in order, a separator between them. -/
inductive Joined (sep : Bytes) : List Bytes → Bytes → Prop
  | none : Joined sep [] []
  | one {s} : Joined sep [s] s
  | more {s t ts r} : Joined sep (t :: ts) r → Joined sep (s :: t :: ts) (s ++ sep ++ r)

/-- The text of a mask: names of exactly the set bits, lowest first. -/
def MaskText (tbl : List (Nat × String)) (ty : String) (m : Nat) (s : Bytes) : Prop :=
  ∃ (bits : List Nat) (names : List Bytes),
    bits.Pairwise (· < ·) ∧ (∀ i, i ∈ bits ↔ m.testBit i = true) ∧
    names.length = bits.length ∧ (∀ (k i : Nat) (name : Bytes), bits[k]? = some i → names[k]? = some name → EnumText tbl ty (2 ^ i) name) ∧
    Joined (ascii " | ") names s

/-- Lingo bits. -/
def lingoBits : List (Nat × String) :=
  [(0x0001, "LingoGeneralBit"), (0x0004, "LingoSimpleRemoteBit"), (0x0008, "LingoDisplayRemoteBit"),
   (0x0010, "LingoExtRemoteBit"), (0x0040, "LingoUSBHostBit"), (0x0080, "LingoRFTunerBit"), (0x0100, "LingoEqBit"),
   (0x0200, "LingoSportsBit"), (0x0400, "LingoDigitalAudioBit"), (0x1000, "LingoStorageBit")]

/-- Context buttons: bit 0 of byte 0 to bit 2 of byte 3. -/
def contextButtonBits : List (Nat × String) :=
  [(2 ^ 0, "ContextButtonPlayPause"), (2 ^ 1, "ContextButtonVolumeUp"), (2 ^ 2, "ContextButtonVolumeDown"),
   (2 ^ 3, "ContextButtonNextTrack"), (2 ^ 4, "ContextButtonPreviousTrack"), (2 ^ 5, "ContextButtonNextAlbum"),
   (2 ^ 6, "ContextButtonPreviousAlbum"), (2 ^ 7, "ContextButtonStop"), (2 ^ 8, "ContextButtonPlayResume"),
   (2 ^ 9, "ContextButtonPause"), (2 ^ 10, "ContextButtonMuteToggle"), (2 ^ 11, "ContextButtonNextChapter"),
   (2 ^ 12, "ContextButtonPreviousChapter"), (2 ^ 13, "ContextButtonNextPlaylist"),
   (2 ^ 14, "ContextButtonPreviousPlaylist"), (2 ^ 15, "ContextButtonShuffleSettingAdvance"),
   (2 ^ 16, "ContextButtonRepeatSettingAdvance"), (2 ^ 17, "ContextButtonPowerOn"), (2 ^ 18, "ContextButtonPowerOff"),
   (2 ^ 19, "ContextButtonBacklightfor30Seconds"), (2 ^ 20, "ContextButtonBeginFastForward"),
   (2 ^ 21, "ContextButtonBeginRewind"), (2 ^ 22, "ContextButtonMenu"), (2 ^ 23, "ContextButtonSelect"),
   (2 ^ 24, "ContextButtonUpArrow"), (2 ^ 25, "ContextButtonDownArrow"), (2 ^ 26, "ContextButtonBacklightOff")]

/-- Accessory info types. -/
def accInfoTypes : List (Nat × String) :=
  [(1, "AccInfoName"), (4, "AccInfoFirmware"), (5, "AccInfoHardware"), (6, "AccInfoMfr"), (7, "AccInfoModel"),
   (8, "AccInfoSerial"), (9, "AccInfoMaxPayload")]

/-- Accessory capabilities. -/
def accCapBits : List (Nat × String) :=
  [(2 ^ 0, "AccCapAnalogLineOut"), (2 ^ 1, "AccCapAnalogLineIn"), (2 ^ 2, "AccCapAnalogVideoOut"),
   (2 ^ 4, "AccCapUSBAudio"), (2 ^ 9, "AccCapAppComm"), (2 ^ 11, "AccCapCheckVolume")]

/-- State infos of Display Remote. -/
def infoTypes : List (Nat × String) :=
  [(0, "InfoTypeTrackPositionMs"), (1, "InfoTypeTrackIndex"), (2, "InfoTypeChapterIndex"), (3, "InfoTypePlayStatus"),
   (4, "InfoTypeVolume"), (5, "InfoTypePower"), (6, "InfoTypeEqualizer"), (7, "InfoTypeShuffle"), (8, "InfoTypeRepeat"),
   (9, "InfoTypeDateTime"), (11, "InfoTypeBacklight"), (12, "InfoTypeHoldSwitch"), (13, "InfoTypeSoundCheck"),
   (14, "InfoTypeAudiobookSpeed"), (15, "InfoTypeTrackPositionSec"), (16, "InfoTypeVolume2")]

/-- Play statuses. -/
def playStatuses : List (Nat × String) :=
  [(0, "PlayStatusStopped"), (1, "PlayStatusPlaying"), (2, "PlayStatusPaused"), (3, "PlayStatusFF"),
   (4, "PlayStatusREW"), (5, "PlayStatusEndFFREW")]

/-- Track infos of Display Remote. -/
def trackInfoTypes : List (Nat × String) :=
  [(0, "TrackInfoTypeCaps"), (1, "TrackInfoTypeChapterTimeName"), (2, "TrackInfoTypeArtist"), (3, "TrackInfoTypeAlbum"),
   (4, "TrackInfoTypeGenre"), (5, "TrackInfoTypeTrack"), (6, "TrackInfoTypeComposer"), (7, "TrackInfoTypeLyrics"),
   (8, "TrackInfoTypeArtworkCount")]

/-- A hexadecimal number with prefix and at least `w` digits. -/
def HexNumber (w n : Nat) (s : Bytes) : Prop := ∃ d, NumberText 16 w n d ∧ s = ascii "0x" ++ d

/-- Number of digits of the command in the text of an id: four for Extended Remote, two otherwise. -/
def cmdDigits (lingo : UInt8) : Nat := if lingo = 0x04 then 4 else 2

/-- The text of the id of a command: lingo and command in hexadecimal, between `opening`, `middle` and `closing`. -/
def IdText (opening middle closing : String) (lingo : UInt8) (cmd : UInt16) (s : Bytes) : Prop :=
  ∃ a b, HexNumber 2 lingo.toNat a ∧ HexNumber (cmdDigits lingo) cmd.toNat b ∧
    s = ascii opening ++ a ++ ascii middle ++ b ++ ascii closing

/-- One line of the listing: id, tab, name. -/
def ListingLine (name : Bytes) (lingo : UInt8) (cmd : UInt16) (s : Bytes) : Prop :=
  ∃ t, IdText "(" "|" ")" lingo cmd t ∧ s = t ++ [0x09] ++ name ++ [0x0A]

/-- Lines for the ids, in order. -/
inductive ListingLines {T : Type} (regs : List (UInt32 × T)) (name : T → Bytes) : List UInt32 → Bytes → Prop
  | nil : ListingLines regs name [] []
  | cons {lingo cmd ids t ts line rest} : candidates regs (idOf lingo cmd) = t :: ts → ListingLine (name t) lingo cmd line →
      ListingLines regs name ids rest → ListingLines regs name (idOf lingo cmd :: ids) (line ++ rest)

/-- The listing of registrations: every registered id once, in increasing order, with the first of its types. -/
def Listing {T : Type} (regs : List (UInt32 × T)) (name : T → Bytes) (s : Bytes) : Prop :=
  ∃ ids : List UInt32, ids.Pairwise (· < ·) ∧ (∀ id, id ∈ ids ↔ ∃ t, (id, t) ∈ regs) ∧ ListingLines regs name ids s

/-- The listing of the program: the two columns of its lines. -/
@[irreducible] def programListing : List (String × String) :=
  [("(0x00|0x00)", "general.RequestIdentify"),
   ("(0x00|0x02)", "general.ACK"),
   ("(0x00|0x03)", "general.RequestRemoteUIMode"),
   ("(0x00|0x04)", "general.ReturnRemoteUIMode"),
   ("(0x00|0x05)", "general.EnterRemoteUIMode"),
   ("(0x00|0x06)", "general.ExitRemoteUIMode"),
   ("(0x00|0x07)", "general.RequestiPodName"),
   ("(0x00|0x08)", "general.ReturniPodName"),
   ("(0x00|0x09)", "general.RequestiPodSoftwareVersion"),
   ("(0x00|0x0a)", "general.ReturniPodSoftwareVersion"),
   ("(0x00|0x0b)", "general.RequestiPodSerialNum"),
   ("(0x00|0x0c)", "general.ReturniPodSerialNum"),
   ("(0x00|0x0d)", "general.RequestiPodModelNum"),
   ("(0x00|0x0e)", "general.ReturniPodModelNum"),
   ("(0x00|0x0f)", "general.RequestLingoProtocolVersion"),
   ("(0x00|0x10)", "general.ReturnLingoProtocolVersion"),
   ("(0x00|0x11)", "general.RequestTransportMaxPayloadSize"),
   ("(0x00|0x12)", "general.ReturnTransportMaxPayloadSize"),
   ("(0x00|0x13)", "general.IdentifyDeviceLingoes"),
   ("(0x00|0x14)", "general.GetDevAuthenticationInfo"),
   ("(0x00|0x15)", "general.RetDevAuthenticationInfo"),
   ("(0x00|0x16)", "general.AckDevAuthenticationInfo"),
   ("(0x00|0x17)", "general.GetDevAuthenticationSignatureV1"),
   ("(0x00|0x18)", "general.RetDevAuthenticationSignature"),
   ("(0x00|0x19)", "general.AckDevAuthenticationStatus"),
   ("(0x00|0x1a)", "general.GetiPodAuthenticationInfo"),
   ("(0x00|0x1b)", "general.RetiPodAuthenticationInfo"),
   ("(0x00|0x1c)", "general.AckiPodAuthenticationInfo"),
   ("(0x00|0x1d)", "general.GetiPodAuthenticationSignature"),
   ("(0x00|0x1e)", "general.RetiPodAuthenticationSignature"),
   ("(0x00|0x1f)", "general.AckiPodAuthenticationStatus"),
   ("(0x00|0x23)", "general.NotifyiPodStateChange"),
   ("(0x00|0x24)", "general.GetiPodOptions"),
   ("(0x00|0x25)", "general.RetiPodOptions"),
   ("(0x00|0x27)", "general.GetAccessoryInfo"),
   ("(0x00|0x28)", "general.RetAccessoryInfo"),
   ("(0x00|0x29)", "general.GetiPodPreferences"),
   ("(0x00|0x2a)", "general.RetiPodPreferences"),
   ("(0x00|0x2b)", "general.SetiPodPreferences"),
   ("(0x00|0x35)", "general.GetUIMode"),
   ("(0x00|0x36)", "general.RetUIMode"),
   ("(0x00|0x37)", "general.SetUIMode"),
   ("(0x00|0x38)", "general.StartIDPS"),
   ("(0x00|0x39)", "general.SetFIDTokenValues"),
   ("(0x00|0x3a)", "general.RetFIDTokenValueACKs"),
   ("(0x00|0x3b)", "general.EndIDPS"),
   ("(0x00|0x3c)", "general.IDPSStatus"),
   ("(0x00|0x3f)", "general.OpenDataSessionForProtocol"),
   ("(0x00|0x40)", "general.CloseDataSession"),
   ("(0x00|0x41)", "general.DevACK"),
   ("(0x00|0x42)", "general.DevDataTransfer"),
   ("(0x00|0x43)", "general.IPodDataTransfer"),
   ("(0x00|0x46)", "general.SetAccStatusNotification"),
   ("(0x00|0x47)", "general.RetAccStatusNotification"),
   ("(0x00|0x48)", "general.AccessoryStatusNotification"),
   ("(0x00|0x49)", "general.SetEventNotification"),
   ("(0x00|0x4a)", "general.IPodNotification"),
   ("(0x00|0x4b)", "general.GetiPodOptionsForLingo"),
   ("(0x00|0x4c)", "general.RetiPodOptionsForLingo"),
   ("(0x00|0x4d)", "general.GetEventNotification"),
   ("(0x00|0x4e)", "general.RetEventNotification"),
   ("(0x00|0x4f)", "general.GetSupportedEventNotification"),
   ("(0x00|0x50)", "general.CancelCommand"),
   ("(0x00|0x51)", "general.RetSupportedEventNotification"),
   ("(0x00|0x54)", "general.SetAvailableCurrent"),
   ("(0x00|0x64)", "general.RequestApplicationLaunch"),
   ("(0x00|0x65)", "general.GetNowPlayingFocusApp"),
   ("(0x00|0x66)", "general.RetNowPlayingFocusApp"),
   ("(0x02|0x00)", "simpleremote.ContextButtonStatus"),
   ("(0x02|0x01)", "simpleremote.ACK"),
   ("(0x02|0x03)", "simpleremote.VideoButtonStatus"),
   ("(0x02|0x04)", "simpleremote.AudioButtonStatus"),
   ("(0x02|0x0b)", "simpleremote.iPodOutButtonStatus"),
   ("(0x02|0x0c)", "simpleremote.RotationInputStatus"),
   ("(0x02|0x0d)", "simpleremote.RadioButtonStatus"),
   ("(0x02|0x0e)", "simpleremote.CameraButtonStatus"),
   ("(0x02|0x0f)", "simpleremote.RegisterDescriptor"),
   ("(0x02|0x10)", "simpleremote.SendHIDReportToiPod"),
   ("(0x02|0x11)", "simpleremote.SendHIDReportToAcc"),
   ("(0x02|0x12)", "simpleremote.UnregisterDescriptor"),
   ("(0x02|0x13)", "simpleremote.AccessibilityEvent"),
   ("(0x02|0x14)", "simpleremote.GetAccessibilityParameter"),
   ("(0x02|0x15)", "simpleremote.RetAccessibilityParameter"),
   ("(0x02|0x16)", "simpleremote.SetAccessibilityParameter"),
   ("(0x02|0x17)", "simpleremote.GetCurrentItemProperty"),
   ("(0x02|0x18)", "simpleremote.RetCurrentItemProperty"),
   ("(0x02|0x19)", "simpleremote.SetContext"),
   ("(0x02|0x1a)", "simpleremote.AccParameterChanged"),
   ("(0x02|0x81)", "simpleremote.DevACK"),
   ("(0x03|0x00)", "dispremote.ACK"),
   ("(0x03|0x01)", "dispremote.GetCurrentEQProfileIndex"),
   ("(0x03|0x02)", "dispremote.RetCurrentEQProfileIndex"),
   ("(0x03|0x03)", "dispremote.SetCurrentEQProfileIndex"),
   ("(0x03|0x04)", "dispremote.GetNumEQProfiles"),
   ("(0x03|0x05)", "dispremote.RetNumEQProfiles"),
   ("(0x03|0x06)", "dispremote.GetIndexedEQProfileName"),
   ("(0x03|0x07)", "dispremote.RetIndexedEQProfileName"),
   ("(0x03|0x08)", "dispremote.SetRemoteEventNotification"),
   ("(0x03|0x09)", "dispremote.RemoteEventNotification"),
   ("(0x03|0x0a)", "dispremote.GetRemoteEventStatus"),
   ("(0x03|0x0b)", "dispremote.RetRemoteEventStatus"),
   ("(0x03|0x0c)", "dispremote.GetiPodStateInfo"),
   ("(0x03|0x0d)", "dispremote.RetiPodStateInfo"),
   ("(0x03|0x0e)", "dispremote.SetiPodStateInfo"),
   ("(0x03|0x0f)", "dispremote.GetPlayStatus"),
   ("(0x03|0x10)", "dispremote.RetPlayStatus"),
   ("(0x03|0x11)", "dispremote.SetCurrentPlayingTrack"),
   ("(0x03|0x12)", "dispremote.GetIndexedPlayingTrackInfo"),
   ("(0x03|0x13)", "dispremote.RetIndexedPlayingTrackInfo"),
   ("(0x03|0x14)", "dispremote.GetNumPlayingTracks"),
   ("(0x03|0x15)", "dispremote.RetNumPlayingTracks"),
   ("(0x03|0x16)", "dispremote.GetArtworkFormats"),
   ("(0x03|0x17)", "dispremote.RetArtworkFormats"),
   ("(0x03|0x18)", "dispremote.GetTrackArtworkData"),
   ("(0x03|0x19)", "dispremote.RetTrackArtworkData"),
   ("(0x03|0x1a)", "dispremote.GetPowerBatteryState"),
   ("(0x03|0x1b)", "dispremote.RetPowerBatteryState"),
   ("(0x03|0x1c)", "dispremote.GetSoundCheckState"),
   ("(0x03|0x1d)", "dispremote.RetSoundCheckState"),
   ("(0x03|0x1e)", "dispremote.SetSoundCheckState"),
   ("(0x03|0x1f)", "dispremote.GetTrackArtworkTimes"),
   ("(0x03|0x20)", "dispremote.RetTrackArtworkTimes"),
   ("(0x04|0x0001)", "extremote.ACK"),
   ("(0x04|0x0002)", "extremote.GetCurrentPlayingTrackChapterInfo"),
   ("(0x04|0x0003)", "extremote.ReturnCurrentPlayingTrackChapterInfo"),
   ("(0x04|0x0004)", "extremote.SetCurrentPlayingTrackChapter"),
   ("(0x04|0x0005)", "extremote.GetCurrentPlayingTrackChapterPlayStatus"),
   ("(0x04|0x0006)", "extremote.ReturnCurrentPlayingTrackChapterPlayStatus"),
   ("(0x04|0x0007)", "extremote.GetCurrentPlayingTrackChapterName"),
   ("(0x04|0x0008)", "extremote.ReturnCurrentPlayingTrackChapterName"),
   ("(0x04|0x0009)", "extremote.GetAudiobookSpeed"),
   ("(0x04|0x000a)", "extremote.ReturnAudiobookSpeed"),
   ("(0x04|0x000b)", "extremote.SetAudiobookSpeed"),
   ("(0x04|0x000c)", "extremote.GetIndexedPlayingTrackInfo"),
   ("(0x04|0x000d)", "extremote.ReturnIndexedPlayingTrackInfo"),
   ("(0x04|0x000e)", "extremote.GetArtworkFormats"),
   ("(0x04|0x000f)", "extremote.RetArtworkFormats"),
   ("(0x04|0x0010)", "extremote.GetTrackArtworkData"),
   ("(0x04|0x0011)", "extremote.RetTrackArtworkData"),
   ("(0x04|0x0016)", "extremote.ResetDBSelection"),
   ("(0x04|0x0017)", "extremote.SelectDBRecord"),
   ("(0x04|0x0018)", "extremote.GetNumberCategorizedDBRecords"),
   ("(0x04|0x0019)", "extremote.ReturnNumberCategorizedDBRecords"),
   ("(0x04|0x001a)", "extremote.RetrieveCategorizedDatabaseRecords"),
   ("(0x04|0x001b)", "extremote.ReturnCategorizedDatabaseRecord"),
   ("(0x04|0x001c)", "extremote.GetPlayStatus"),
   ("(0x04|0x001d)", "extremote.ReturnPlayStatus"),
   ("(0x04|0x001e)", "extremote.GetCurrentPlayingTrackIndex"),
   ("(0x04|0x001f)", "extremote.ReturnCurrentPlayingTrackIndex"),
   ("(0x04|0x0020)", "extremote.GetIndexedPlayingTrackTitle"),
   ("(0x04|0x0021)", "extremote.ReturnIndexedPlayingTrackTitle"),
   ("(0x04|0x0022)", "extremote.GetIndexedPlayingTrackArtistName"),
   ("(0x04|0x0023)", "extremote.ReturnIndexedPlayingTrackArtistName"),
   ("(0x04|0x0024)", "extremote.GetIndexedPlayingTrackAlbumName"),
   ("(0x04|0x0025)", "extremote.ReturnIndexedPlayingTrackAlbumName"),
   ("(0x04|0x0026)", "extremote.SetPlayStatusChangeNotification"),
   ("(0x04|0x0027)", "extremote.PlayStatusChangeNotification"),
   ("(0x04|0x0028)", "extremote.PlayCurrentSelection"),
   ("(0x04|0x0029)", "extremote.PlayControl"),
   ("(0x04|0x002a)", "extremote.GetTrackArtworkTimes"),
   ("(0x04|0x002b)", "extremote.RetTrackArtworkTimes"),
   ("(0x04|0x002c)", "extremote.GetShuffle"),
   ("(0x04|0x002d)", "extremote.ReturnShuffle"),
   ("(0x04|0x002e)", "extremote.SetShuffle"),
   ("(0x04|0x002f)", "extremote.GetRepeat"),
   ("(0x04|0x0030)", "extremote.ReturnRepeat"),
   ("(0x04|0x0031)", "extremote.SetRepeat"),
   ("(0x04|0x0032)", "extremote.SetDisplayImage"),
   ("(0x04|0x0033)", "extremote.GetMonoDisplayImageLimits"),
   ("(0x04|0x0034)", "extremote.ReturnMonoDisplayImageLimits"),
   ("(0x04|0x0035)", "extremote.GetNumPlayingTracks"),
   ("(0x04|0x0036)", "extremote.ReturnNumPlayingTracks"),
   ("(0x04|0x0037)", "extremote.SetCurrentPlayingTrack"),
   ("(0x04|0x0038)", "extremote.SelectSortDBRecord"),
   ("(0x04|0x0039)", "extremote.GetColorDisplayImageLimits"),
   ("(0x04|0x003a)", "extremote.ReturnColorDisplayImageLimits"),
   ("(0x04|0x003b)", "extremote.ResetDBSelectionHierarchy"),
   ("(0x04|0x003c)", "extremote.GetDBiTunesInfo"),
   ("(0x04|0x003d)", "extremote.RetDBiTunesInfo"),
   ("(0x04|0x003e)", "extremote.GetUIDTrackInfo"),
   ("(0x04|0x003f)", "extremote.RetUIDTrackInfo"),
   ("(0x04|0x0040)", "extremote.GetDBTrackInfo"),
   ("(0x04|0x0041)", "extremote.RetDBTrackInfo"),
   ("(0x04|0x0042)", "extremote.GetPBTrackInfo"),
   ("(0x04|0x0043)", "extremote.RetPBTrackInfo"),
   ("(0x0a|0x00)", "audio.AccAck"),
   ("(0x0a|0x01)", "audio.iPodAck"),
   ("(0x0a|0x02)", "audio.GetAccSampleRateCaps"),
   ("(0x0a|0x03)", "audio.RetAccSampleRateCaps"),
   ("(0x0a|0x04)", "audio.TrackNewAudioAttributes"),
   ("(0x0a|0x05)", "audio.SetVideoDelay")]

end Spec
