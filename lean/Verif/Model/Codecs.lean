import Verif.Model.Lingo

/-!
# `MarshalBinary` / `UnmarshalBinary` methods of the message types

`UnmarshalBinary` is only ever called on a fresh zero value (cmd.go:132,147-158, lingo.go:162,184), so it is
modelled as a function from the data to the decoded value.
-/

namespace Ipod
open Go

/-- `binary.Read(r, BigEndian, &x)` with the error ignored: the value (unchanged zero on error) and the rest.
See lingo-general/general.go:461-463,497,521. -/
def readOrZero (f : FTy) (zero : f.denote) (r : Bytes) : f.denote × Bytes :=
  match binRead [f] r with
  | (.ok (v, _), r') => (v, r')
  | (.error _, r') => (zero, r')

/-! ### FID tokens -/

/-- general.go:445-452 `(*FIDIdentifyToken).MarshalBinary`; `uint8(len(..))` truncates. -/
def marshalIdentify (lingoes : Bytes) (options deviceID : UInt32) : Bytes :=
  [UInt8.ofNat lingoes.length] ++ lingoes ++ FTy.enc .u32 options ++ FTy.enc .u32 deviceID

/-- general.go:454-465 `(*FIDIdentifyToken).UnmarshalBinary`: errors of the three `binary.Read`s are
ignored; reading the slice either fills it or (too few bytes) leaves zeros and drains the reader. -/
def unmarshalIdentify (data : Bytes) : Except Err FIDToken :=
  match data with
  | [] => .error .eof
  | n :: r =>
    let (lingoes, r1) :=
      if r.length < n.toNat then (List.replicate n.toNat 0, []) else (r.take n.toNat, r.drop n.toNat)
    let (opt, r2) := readOrZero .u32 0 r1
    let (dev, _) := readOrZero .u32 0 r2
    .ok (.identify lingoes opt dev)

/-- `bufio.Reader.ReadBytes(0x00)` over the whole remaining reader: up to and including the first NUL, or
everything. See lingo-general/general.go:525. -/
def untilNul : Bytes → Bytes
  | [] => []
  | x :: xs => if x = 0 then [0] else x :: untilNul xs

/-- `v := make([]byte, n); r.Read(v)`: the first `n` bytes, zero padded. See lingo-general/general.go:526-537. -/
def readPadded (n : Nat) (r : Bytes) : Bytes := r.take n ++ List.replicate (n - r.length) 0

/-- general.go:519-542 `(*FIDAccInfoToken).UnmarshalBinary`. With empty data the type stays 0, an unknown
type. -/
def unmarshalAccInfo (data : Bytes) : Except Err FIDToken :=
  let (ty, r) := readOrZero .u8 0 data
  if ty = 0x01 ∨ ty = 0x06 ∨ ty = 0x07 ∨ ty = 0x08 then .ok (.accInfo ty (some (untilNul r)))
  else if ty = 0x04 ∨ ty = 0x05 then .ok (.accInfo ty (some (readPadded 3 r)))
  else if ty = 0x09 then .ok (.accInfo ty (some (readPadded 2 r)))
  else if ty = 0x0b ∨ ty = 0x0c then .ok (.accInfo ty (some (readPadded 4 r)))
  else .error Err.unknownInfo

/-- general.go:565-576: field types of `FIDScreenInfoToken`. -/
abbrev screenInfoSchema : List FTy := [.u16, .u16, .u16, .u16, .u16, .u16, .u8, .u8]

/-- general.go:597-619 `(*FIDTokenValue).MarshalBinary`: the dispatch over the dynamic type of `Token`.
`FIDAccInfoToken` (interface field) and `FIDEAProtocolToken` (slice field) have no marshaller and no size. -/
def marshalToken : FIDToken → Except Err Bytes
  | .nil => .error Err.unknownToken
  | .identify l o d => .ok (marshalIdentify l o d)
  | .accCaps m => binWrite [.u64] (m, ())
  | .accInfo _ _ => .error Err.unknownToken
  | .ipodPref a b c => binWrite [.u8, .u8, .u8] (a, b, c, ())
  | .eaProtocol _ _ => .error Err.unknownToken
  | .bundleSeed s => binWrite [.arr 11] (s, ())
  | .screenInfo a b c d e f g h => binWrite screenInfoSchema (a, b, c, d, e, f, g, h, ())
  | .eaMetadata a b => binWrite [.u8, .u8] (a, b, ())
  | .micCaps m => binWrite [.u32] (m, ())
  | .raw b => .ok b

/-- general.go:597-619 `(*FIDTokenValue).MarshalBinary`. -/
def marshalTokenValue (v : FIDTokenValue) : Except Err Bytes :=
  match marshalToken v.token with
  | .ok b => .ok ([v.id.fidType, v.id.fidSubtype] ++ b)
  | .error e => .error e

/-- Lift a plain `binary.Read` result into a token. See lingo-general/general.go:621-666. -/
def tokenRead (fs : List FTy) (data : Bytes) (f : SVal fs → FIDToken) : Out (Except Err FIDToken) :=
  match (binRead fs data).1 with
  | .ok v => .ret (.ok (f v))
  | .error e => .ret (.error e)

/-- general.go:627-671: choice of the token type by id and decoding of its body. `FIDEAProtocolToken`
(555-559) indexes `data[0]`, hence panics on an empty body. -/
def unmarshalToken (id : TokenID) (data : Bytes) : Out (Except Err FIDToken) :=
  if id.fidType = 0x00 then
    match id.fidSubtype.toNat with
    | 0x00 => .ret (unmarshalIdentify data)
    | 0x01 => .ret (.ok (.accCaps (readOrZero .u64 0 data).1))
    | 0x02 => .ret (unmarshalAccInfo data)
    | 0x03 => tokenRead [.u8, .u8, .u8] data fun (a, b, c, _) => .ipodPref a b c
    | 0x04 =>
      index data 0 >>= fun i =>
      dropOrPanic data 1 >>= fun s => .ret (.ok (.eaProtocol i s))
    | 0x05 => tokenRead [.arr 11] data fun (s, _) => .bundleSeed s
    | 0x07 => tokenRead screenInfoSchema data fun (a, b, c, d, e, f, g, h, _) => .screenInfo a b c d e f g h
    | 0x08 => tokenRead [.u8, .u8] data fun (a, b, _) => .eaMetadata a b
    | _ => .ret (.ok (.raw data))
  else if id.fidType = 0x01 then tokenRead [.u32] data fun (m, _) => .micCaps m
  else .ret (.ok (.raw data))

/-- general.go:621-673 `(*FIDTokenValue).UnmarshalBinary`. -/
def unmarshalTokenValue (data : Bytes) : Out (Except Err FIDTokenValue) :=
  match binRead [.u8, .u8] data with
  | (.error e, _) => .ret (.error e)
  | (.ok (a, b, _), r) =>
    unmarshalToken ⟨a, b⟩ r >>= fun t =>
    match t with
    | .error e => .ret (.error e)
    | .ok t => .ret (.ok ⟨⟨a, b⟩, t⟩)

/-- Loop of general.go:683-690: one length byte and the bytes of each element. -/
def marshalList {α : Type} (enc : α → Except Err Bytes) : List α → Except Err Bytes
  | [] => .ok []
  | v :: vs =>
    match enc v with
    | .error e => .error e
    | .ok b =>
      match marshalList enc vs with
      | .error e => .error e
      | .ok rest => .ok ([UInt8.ofNat b.length] ++ b ++ rest)

/-- general.go:679-692 `(*SetFIDTokenValues).MarshalBinary`: count byte, then the elements. -/
def marshalTokens (vs : List FIDTokenValue) : Except Err Bytes :=
  match marshalList marshalTokenValue vs with
  | .error e => .error e
  | .ok b => .ok ([UInt8.ofNat vs.length] ++ b)

/-- Loop of general.go:701-712 / 787-796: `n` elements, each a length byte and `br.Next(len)`
(which returns what is there if the buffer is shorter). -/
def unmarshalList {α : Type} (dec : Bytes → Out (Except Err α)) : Nat → Bytes → Out (Except Err (List α))
  | 0, _ => .ret (.ok [])
  | n + 1, r =>
    match r with
    | [] => .ret (.error .eof)
    | len :: r' =>
      dec (r'.take len.toNat) >>= fun v =>
      match v with
      | .error e => .ret (.error e)
      | .ok v =>
        unmarshalList dec n (r'.drop len.toNat) >>= fun vs =>
        match vs with
        | .error e => .ret (.error e)
        | .ok vs => .ret (.ok (v :: vs))

/-- general.go:694-714 `(*SetFIDTokenValues).UnmarshalBinary` (bytes behind the last token are ignored). -/
def unmarshalTokens (data : Bytes) : Out (Except Err (List FIDTokenValue)) :=
  match data with
  | [] => .ret (.error .eof)
  | n :: r => unmarshalList unmarshalTokenValue n.toNat r

/-- general.go:721-743 `(*FIDTokenValueACK).MarshalBinary`: a nil `ACK` is an error. -/
def marshalAck (v : FIDTokenValueACK) : Except Err Bytes :=
  match v.ack with
  | none => .error Err.unknownAck
  | some b => .ok ([v.id.fidType, v.id.fidSubtype] ++ b)

/-- general.go:745-756 `(*FIDTokenValueACK).UnmarshalBinary`. -/
def unmarshalAck (data : Bytes) : Out (Except Err FIDTokenValueACK) :=
  match binRead [.u8, .u8] data with
  | (.error e, _) => .ret (.error e)
  | (.ok (a, b, _), r) => .ret (.ok ⟨⟨a, b⟩, some r⟩)

/-- general.go:762-775 `RetFIDTokenValueACKs.MarshalBinary`. -/
def marshalAcks (vs : List FIDTokenValueACK) : Except Err Bytes :=
  match marshalList marshalAck vs with
  | .error e => .error e
  | .ok b => .ok ([UInt8.ofNat vs.length] ++ b)

/-- general.go:777-797 `(*RetFIDTokenValueACKs).UnmarshalBinary`. -/
def unmarshalAcks (data : Bytes) : Out (Except Err (List FIDTokenValueACK)) :=
  match data with
  | [] => .ret (.error .eof)
  | n :: r => unmarshalList unmarshalAck n.toNat r

/-! ### General lingo -/

/-- general.go:266-284 `(*RetDevAuthenticationInfo).UnmarshalBinary`. -/
def unmarshalDevAuthInfo (r : Bytes) : Except Err (UInt8 × UInt8 × UInt8 × UInt8 × Bytes × Unit) :=
  match r with
  | major :: minor :: rest =>
    if major ≥ 0x02 then
      match rest with
      | cur :: max :: data => .ok (major, minor, cur, max, data, ())
      | _ => .error Err.shortPacket
    else .ok (major, minor, 0, 0, [], ())
  | _ => .error Err.shortPacket

/-- general.go:894-900 `(*RequestApplicationLaunch).UnmarshalBinary`: indexes `data[0..2]`, panics when
shorter. -/
def unmarshalAppLaunch (data : Bytes) : Out (UInt8 × UInt8 × UInt8 × Bytes × Unit) :=
  index data 0 >>= fun a => index data 1 >>= fun b => index data 2 >>= fun c =>
  dropOrPanic data 3 >>= fun s => .ret (a, b, c, s, ())

/-- general.go:189-198 `(*ReturniPodModelNum).UnmarshalBinary`: the `binary.Read` error is ignored. -/
def unmarshalModelNum (data : Bytes) : UInt32 × Bytes × Unit :=
  let (id, r) := readOrZero .u32 0 data
  (id, r, ())

/-! ### Extended remote -/

/-- extremote.go:164-173 `ReturnIndexedPlayingTrackInfo.MarshalBinary`. -/
def marshalExtInfo (ty : UInt8) (info : ExtInfo) : Except Err Bytes :=
  match (match info with
    | .caps a b c => binWrite [.u32, .u32, .u16] (a, b, c, ())
    | .longText a b c => binWrite [.u8, .u16, .u8] (a, b, c, ())
    | .emptyVal => binWrite [] ()
    | .emptyPtr => binWrite [] ()
    | .bytes b => .ok b : Except Err Bytes) with
  | .ok b => .ok ([ty] ++ b)
  | .error e => .error e

/-- extremote.go:175-193 `(*ReturnIndexedPlayingTrackInfo).UnmarshalBinary`. -/
def unmarshalExtInfo (data : Bytes) : Except Err (UInt8 × ExtInfo × Unit) :=
  match binRead [.u8] data with
  | (.error e, _) => .error e
  | (.ok (ty, _), r) =>
    if ty = 0x00 then
      match (binRead [.u32, .u32, .u16] r).1 with
      | .ok (a, b, c, _) => .ok (ty, .caps a b c, ())
      | .error e => .error e
    else if ty = 0x03 ∨ ty = 0x04 then
      match (binRead [.u8, .u16, .u8] r).1 with
      | .ok (a, b, c, _) => .ok (ty, .longText a b c, ())
      | .error e => .error e
    else
      match (binRead [] r).1 with
      | .ok _ => .ok (ty, .emptyPtr, ())
      | .error e => .error e

/-- extremote.go:198-203: field types of `ArtworkFormat`. -/
abbrev artworkSchema : List FTy := [.u16, .u8, .u16, .u16]

/-- See lingo-extremote/extremote.go:198-211. -/
def ArtworkFormat.toVal (f : ArtworkFormat) : SVal artworkSchema :=
  (f.formatID, f.pixelFormat, f.imageWidth, f.imageHeight, ())

/-- See lingo-extremote/extremote.go:198-221. -/
def ArtworkFormat.ofVal : SVal artworkSchema → ArtworkFormat
  | (a, b, c, d, _) => ⟨a, b, c, d⟩

/-- extremote.go:208-214 `RetArtworkFormats.MarshalBinary` (write errors ignored; there are none). -/
def marshalArtworks (fs : List ArtworkFormat) : Bytes :=
  (fs.map fun f => encStruct artworkSchema f.toVal).flatten

/-- extremote.go:216-231 `(*RetArtworkFormats).UnmarshalBinary`: read records until `io.EOF`.
The recursion is on the length of the unread data, which shrinks by 7 with every record. -/
def unmarshalArtworks (data : Bytes) : Except Err (List ArtworkFormat) :=
  match _h : binRead artworkSchema data with
  | (.error .eof, _) => .ok []
  | (.error e, _) => .error e
  | (.ok v, rest) =>
    if _h : rest.length < data.length then
      match unmarshalArtworks rest with
      | .ok fs => .ok (ArtworkFormat.ofVal v :: fs)
      | .error e => .error e
    else .ok []  -- unreachable: a record has 7 bytes (`binRead_ok_iff`)
termination_by data.length

/-! ### Display remote -/

/-- Field types and values of the `Info...` structs (dispremote.go:118-188). -/
def DispState.encode : DispState → Except Err Bytes
  | .trackPositionMs v => binWrite [.u32] (v, ())
  | .trackIndex v => binWrite [.u32] (v, ())
  | .chapterIndex a b c => binWrite [.u32, .u16, .u16] (a, b, c, ())
  | .playStatus v => binWrite [.u8] (v, ())
  | .volume a b => binWrite [.u8, .u8] (a, b, ())
  | .power a b => binWrite [.u8, .u8] (a, b, ())
  | .equalizer v => binWrite [.u32] (v, ())
  | .shuffle v => binWrite [.u8] (v, ())
  | .repeat v => binWrite [.u8] (v, ())
  | .dateTime a b c d e => binWrite [.u16, .u8, .u8, .u8, .u8] (a, b, c, d, e, ())
  | .backlight v => binWrite [.u8] (v, ())
  | .holdSwitch v => binWrite [.u8] (v, ())
  | .soundCheck v => binWrite [.u8] (v, ())
  | .audiobookSpeed v => binWrite [.u8] (v, ())
  | .trackPositionSec v => binWrite [.u16] (v, ())
  | .volume2 a b c => binWrite [.u8, .u8, .u8] (a, b, c, ())

/-- `binary.Write` with its error ignored (dispremote.go:200-201, 324-325): nothing is written on error. -/
def writeIgnoring : Except Err Bytes → Bytes
  | .ok b => b
  | .error _ => []

/-- dispremote.go:198-203 `(*RetiPodStateInfo).MarshalBinary`. -/
def marshalDispState (ty : UInt8) (info : DispState) : Bytes := [ty] ++ writeIgnoring info.encode

/-- Read a struct and wrap it. See lingo-dispremote/dispremote.go:205-244,329-371. -/
def readAs {α : Type} (fs : List FTy) (r : Bytes) (f : SVal fs → α) : Except Err α :=
  match (binRead fs r).1 with
  | .ok v => .ok (f v)
  | .error e => .error e

/-- dispremote.go:205-245 `(*RetiPodStateInfo).UnmarshalBinary`; a failed read of the type leaves 0. -/
def unmarshalDispState (data : Bytes) : Except Err (UInt8 × DispState × Unit) :=
  let (ty, r) := readOrZero .u8 0 data
  match ty.toNat with
  | 0 => readAs [.u32] r fun (v, _) => (ty, .trackPositionMs v, ())
  | 1 => readAs [.u32] r fun (v, _) => (ty, .trackIndex v, ())
  | 2 => readAs [.u32, .u16, .u16] r fun (a, b, c, _) => (ty, .chapterIndex a b c, ())
  | 3 => readAs [.u8] r fun (v, _) => (ty, .playStatus v, ())
  | 4 => readAs [.u8, .u8] r fun (a, b, _) => (ty, .volume a b, ())
  | 5 => readAs [.u8, .u8] r fun (a, b, _) => (ty, .power a b, ())
  | 6 => readAs [.u32] r fun (v, _) => (ty, .equalizer v, ())
  | 7 => readAs [.u8] r fun (v, _) => (ty, .shuffle v, ())
  | 8 => readAs [.u8] r fun (v, _) => (ty, .repeat v, ())
  | 9 => readAs [.u16, .u8, .u8, .u8, .u8] r fun (a, b, c, d, e, _) => (ty, .dateTime a b c d e, ())
  | 11 => readAs [.u8] r fun (v, _) => (ty, .backlight v, ())
  | 12 => readAs [.u8] r fun (v, _) => (ty, .holdSwitch v, ())
  | 13 => readAs [.u8] r fun (v, _) => (ty, .soundCheck v, ())
  | 14 => readAs [.u8] r fun (v, _) => (ty, .audiobookSpeed v, ())
  | 15 => readAs [.u16] r fun (v, _) => (ty, .trackPositionSec v, ())
  | 16 => readAs [.u8, .u8, .u8] r fun (a, b, c, _) => (ty, .volume2 a b c, ())
  | _ => .error Err.unknownInfo

/-- Encoding of the `TrackInfo...` structs (dispremote.go:284-315): those with a `[]byte` field have no
binary size. -/
def DispTrack.encode : DispTrack → Except Err Bytes
  | .caps a b c => binWrite [.u32, .u32, .u16] (a, b, c, ())
  | .chapterTimeName a b => binWrite [.u32, .bytes] (a, b, ())
  | .artist b => binWrite [.bytes] (b, ())
  | .album b => binWrite [.bytes] (b, ())
  | .genre b => binWrite [.bytes] (b, ())
  | .track b => binWrite [.bytes] (b, ())
  | .composer b => binWrite [.bytes] (b, ())
  | .lyrics a b c => binWrite [.u8, .u16, .bytes] (a, b, c, ())
  | .artworkCount v => binWrite [.u8] (v, ())

/-- dispremote.go:322-327 `(*RetIndexedPlayingTrackInfo).MarshalBinary`. -/
def marshalDispTrack (ty : UInt8) (info : DispTrack) : Bytes := [ty] ++ writeIgnoring info.encode

/-- dispremote.go:329-372 `(*RetIndexedPlayingTrackInfo).UnmarshalBinary`. -/
def unmarshalDispTrack (data : Bytes) : Except Err (UInt8 × DispTrack × Unit) :=
  let (ty, r) := readOrZero .u8 0 data
  match ty.toNat with
  | 0 => readAs [.u32, .u32, .u16] r fun (a, b, c, _) => (ty, .caps a b c, ())
  | 1 => readAs [.u32, .bytes] r fun (a, b, _) => (ty, .chapterTimeName a b, ())
  | 2 => readAs [.bytes] r fun (b, _) => (ty, .artist b, ())
  | 3 => readAs [.bytes] r fun (b, _) => (ty, .album b, ())
  | 4 => readAs [.bytes] r fun (b, _) => (ty, .genre b, ())
  | 5 => readAs [.bytes] r fun (b, _) => (ty, .track b, ())
  | 6 => readAs [.bytes] r fun (b, _) => (ty, .composer b, ())
  | 7 => readAs [.u8, .u16, .bytes] r fun (a, b, c, _) => (ty, .lyrics a b c, ())
  | 8 => readAs [.u8] r fun (v, _) => (ty, .artworkCount v, ())
  | _ => .error Err.unknownInfo

/-! ### Audio -/

/-- lingo-audio/audio.go:48-52 `(*RetAccSampleRateCaps).MarshalBinary`: a `[]uint32` is written element by
element. -/
def marshalRates (rs : List UInt32) : Bytes := (rs.map fun r => FTy.enc .u32 r).flatten

/-- Reading `n` big-endian `uint32`s from a buffer that is long enough. See lingo-audio/audio.go:43-46. -/
def readRates : Nat → Bytes → List UInt32
  | 0, _ => []
  | n + 1, b => UInt32.ofNat (beDec (b.take 4)) :: readRates n (b.drop 4)

/-- audio.go:43-46 `(*RetAccSampleRateCaps).UnmarshalBinary`: `len(data)/4` rates; there are always enough
bytes, so `binary.Read` cannot fail. -/
def unmarshalRates (data : Bytes) : List UInt32 := readRates (data.length / 4) data

/-! ### Simple remote -/

/-- `bits.Len32`. See lingo-simpleremote/simpleremote.go:49. -/
def bitsLen32 (x : UInt32) : Nat := if x = 0 then 0 else Nat.log2 x.toNat + 1

/-- `binary.LittleEndian.PutUint32` into a 4-byte array. See lingo-simpleremote/simpleremote.go:48. -/
def leEnc4 (x : UInt32) : Bytes := (beEnc 4 x.toNat).reverse

/-- simpleremote.go:46-54 `(*ButtonStates).MarshalBinary`. -/
def marshalButtons (x : UInt32) : Bytes :=
  let byteLen := (bitsLen32 x + 7) / 8
  let byteLen := if byteLen = 0 then 1 else byteLen
  (leEnc4 x).take byteLen

/-- simpleremote.go:56-66 `(*ButtonStates).UnmarshalBinary`. -/
def unmarshalButtons (data : Bytes) : Except Err UInt32 :=
  let mask := data.take 4 ++ List.replicate (4 - data.length) 0
  if min 4 data.length = 0 then .error Err.invalidData
  else .ok (UInt32.ofNat (beDec mask.reverse))

/-! ### The interfaces `encoding.BinaryMarshaler` / `BinaryUnmarshaler` -/

/-- `payload.(encoding.BinaryMarshaler)` for a pointer to the message struct: `none` if the type has no
`MarshalBinary`, else its result. Embedded `ButtonStates` promotes its methods
(simpleremote.go:137-142); `ContextButtonStatus` delegates (122-134). -/
def TypeId.marshalBinary : (t : TypeId) → t.Val → Option (Except Err Bytes)
  | .gen .ReturniPodName, v => some (.ok v.1)                 -- general.go:142-144
  | .gen .ReturniPodSerialNum, v => some (.ok v.1)            -- general.go:165-167
  | .gen .ReturniPodModelNum, v => some (.ok (FTy.enc .u32 v.1 ++ v.2.1))  -- general.go:182-187
  | .gen .SetFIDTokenValues, v => some (marshalTokens v.1)
  | .gen .RetFIDTokenValueACKs, v => some (marshalAcks v.1)
  | .ext .ReturnIndexedPlayingTrackInfo, v => some (marshalExtInfo v.1 v.2.1)
  | .ext .RetArtworkFormats, v => some (.ok (marshalArtworks v.1))
  | .ext .ReturnIndexedPlayingTrackTitle, v => some (.ok v.1)       -- extremote.go:319-321
  | .ext .ReturnIndexedPlayingTrackArtistName, v => some (.ok v.1)  -- extremote.go:336-338
  | .ext .ReturnIndexedPlayingTrackAlbumName, v => some (.ok v.1)   -- extremote.go:353-355
  | .disp .RetiPodStateInfo, v => some (.ok (marshalDispState v.1 v.2.1))
  | .disp .RetIndexedPlayingTrackInfo, v => some (.ok (marshalDispTrack v.1 v.2.1))
  | .aud .RetAccSampleRateCaps, v => some (.ok (marshalRates v.1))
  | .sim .ContextButtonStatus, v => some (.ok (marshalButtons v.1))
  | .sim .VideoButtonStatus, v => some (.ok (marshalButtons v.1))
  | .sim .AudioButtonStatus, v => some (.ok (marshalButtons v.1))
  | _, _ => none

/-- Wrap a pure decoder. See cmd.go:147-148. -/
def okVal {α : Type} (v : α) : Option (Out (Except Err α)) := some (.ret (.ok v))

/-- Map over the value inside. See cmd.go:147-148. -/
def mapVal {α β : Type} (f : α → β) (x : Out (Except Err α)) : Option (Out (Except Err β)) :=
  some (x >>= fun r => match r with | .ok v => .ret (.ok (f v)) | .error e => .ret (.error e))

/-- `payload.(encoding.BinaryUnmarshaler)` for a pointer to a new zero value of the type: `none` if the type
has no `UnmarshalBinary`, else the result of decoding `data`. See cmd.go:147-148. -/
def TypeId.unmarshalBinary : (t : TypeId) → Bytes → Option (Out (Except Err t.Val))
  | .gen .ReturniPodName, d => okVal (d, ())                  -- general.go:146-150
  | .gen .ReturniPodSerialNum, d => okVal (d, ())             -- general.go:169-173
  | .gen .ReturniPodModelNum, d => okVal (unmarshalModelNum d)
  | .gen .RetDevAuthenticationInfo, d => some (.ret (unmarshalDevAuthInfo d))
  | .gen .RetDevAuthenticationSignature, d => okVal (d, ())   -- general.go:309-313
  | .gen .SetFIDTokenValues, d => mapVal (fun l => (l, ())) (unmarshalTokens d)
  | .gen .RetFIDTokenValueACKs, d => mapVal (fun l => (l, ())) (unmarshalAcks d)
  | .gen .RequestApplicationLaunch, d => some (unmarshalAppLaunch d >>= fun v => .ret (.ok v))
  | .ext .ReturnIndexedPlayingTrackInfo, d => some (.ret (unmarshalExtInfo d))
  | .ext .RetArtworkFormats, d => mapVal (fun l => (l, ())) (.ret (unmarshalArtworks d))
  | .ext .ReturnIndexedPlayingTrackTitle, d => okVal (d, ())       -- extremote.go:323-327
  | .ext .ReturnIndexedPlayingTrackArtistName, d => okVal (d, ())  -- extremote.go:340-344
  | .ext .ReturnIndexedPlayingTrackAlbumName, d => okVal (d, ())   -- extremote.go:357-361
  | .disp .RetiPodStateInfo, d => some (.ret (unmarshalDispState d))
  | .disp .RetIndexedPlayingTrackInfo, d => some (.ret (unmarshalDispTrack d))
  | .aud .RetAccSampleRateCaps, d => okVal (unmarshalRates d, ())
  | .sim .ContextButtonStatus, d => mapVal (fun x => (x, (), ())) (.ret (unmarshalButtons d))
  | .sim .VideoButtonStatus, d => mapVal (fun x => (x, (), ())) (.ret (unmarshalButtons d))
  | .sim .AudioButtonStatus, d => mapVal (fun x => (x, (), ())) (.ret (unmarshalButtons d))
  | _, _ => none

end Ipod
