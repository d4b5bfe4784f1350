import Verif.Go.Binary

/-!
# Values held in slice and interface fields of the message structs

`nil` and empty slices are identified (the code never distinguishes them). An interface value is an
inductive type with one constructor per dynamic type the code stores there. The code stores no nil in the three `Info`
interfaces below; what a caller may put there is the subject of `Model/Any.lean`.
-/

namespace Ipod
open Go

/-- lingo-general/general.go:587-590 `TokenID`. -/
structure TokenID where
  fidType : UInt8
  fidSubtype : UInt8
deriving DecidableEq, Repr

/-- Dynamic values of `FIDTokenValue.Token` (general.go:592-595): pointers to the token structs of
general.go:439-585, a raw `[]byte` (general.go:667-670), or nil. -/
inductive FIDToken where
  | nil
  /-- general.go:439-443 `*FIDIdentifyToken` -/
  | identify (accLingoes : Bytes) (deviceOptions deviceID : UInt32)
  /-- general.go:491-493 `*FIDAccCapsToken` -/
  | accCaps (mask : UInt64)
  /-- general.go:514-517 `*FIDAccInfoToken`; `Value` is nil or a `[]byte` -/
  | accInfo (ty : UInt8) (value : Option Bytes)
  /-- general.go:544-548 `*FIDiPodPreferenceToken` -/
  | ipodPref (prefClass prefClassSetting restoreOnExit : UInt8)
  /-- general.go:550-553 `*FIDEAProtocolToken` -/
  | eaProtocol (index : UInt8) (str : Bytes)
  /-- general.go:561-563 `*FIDBundleSeedIDPrefToken` -/
  | bundleSeed (s : { b : Bytes // b.length = 11 })
  /-- general.go:565-576 `*FIDScreenInfoToken` -/
  | screenInfo (wIn hIn wPx hPx ipodW ipodH : UInt16) (features gamma : UInt8)
  /-- general.go:578-581 `*FIDEAProtocolMetadataToken` -/
  | eaMetadata (index metadataType : UInt8)
  /-- general.go:583-585 `*FIDMicrophoneCapsToken` -/
  | micCaps (mask : UInt32)
  /-- raw bytes -/
  | raw (b : Bytes)
deriving DecidableEq, Repr

/-- general.go:592-595 `FIDTokenValue`. -/
structure FIDTokenValue where
  id : TokenID
  token : FIDToken
deriving DecidableEq, Repr

/-- general.go:716-719 `FIDTokenValueACK`; the interface `ACK` is nil or a `[]byte`. -/
structure FIDTokenValueACK where
  id : TokenID
  ack : Option Bytes
deriving DecidableEq, Repr

/-- lingo-extremote/extremote.go:198-203, lingo-dispremote/dispremote.go:382-387 `ArtworkFormat`. -/
structure ArtworkFormat where
  formatID : UInt16
  pixelFormat : UInt8
  imageWidth : UInt16
  imageHeight : UInt16
deriving DecidableEq, Repr

/-- Dynamic values of `ReturnIndexedPlayingTrackInfo.Info` (extremote.go:159-162). -/
inductive ExtInfo where
  /-- extremote.go:138-142 `*TrackCaps` -/
  | caps (caps trackLength : UInt32) (chapterCount : UInt16)
  /-- extremote.go:148-152 `*TrackLongText` -/
  | longText (flags : UInt8) (packetIndex : UInt16) (text : UInt8)
  /-- the value `struct{}{}` (handler.go:62) -/
  | emptyVal
  /-- the pointer `&struct{}{}` (extremote.go:187) -/
  | emptyPtr
  /-- a `[]byte` (handler.go:64) -/
  | bytes (b : Bytes)
deriving DecidableEq, Repr

/-- Dynamic values of `RetiPodStateInfo.InfoData`: pointers to the `Info...` structs of
lingo-dispremote/dispremote.go:118-188. -/
inductive DispState where
  | trackPositionMs (v : UInt32)
  | trackIndex (v : UInt32)
  | chapterIndex (track : UInt32) (count index : UInt16)
  | playStatus (v : UInt8)
  | volume (mute level : UInt8)
  | power (state level : UInt8)
  | equalizer (v : UInt32)
  | shuffle (v : UInt8)
  | repeat (v : UInt8)
  | dateTime (year : UInt16) (month day hour minute : UInt8)
  | backlight (v : UInt8)
  | holdSwitch (v : UInt8)
  | soundCheck (v : UInt8)
  | audiobookSpeed (v : UInt8)
  | trackPositionSec (v : UInt16)
  | volume2 (mute level absolute : UInt8)
deriving DecidableEq, Repr

/-- Dynamic values of `RetIndexedPlayingTrackInfo.InfoData`: pointers to the `TrackInfo...` structs of
dispremote.go:284-315. -/
inductive DispTrack where
  | caps (caps totalMs : UInt32) (chapterCount : UInt16)
  | chapterTimeName (time : UInt32) (name : Bytes)
  | artist (name : Bytes)
  | album (name : Bytes)
  | genre (name : Bytes)
  | track (title : Bytes)
  | composer (name : Bytes)
  | lyrics (flags : UInt8) (packetIndex : UInt16) (text : Bytes)
  | artworkCount (none : UInt8)
deriving DecidableEq, Repr

end Ipod
