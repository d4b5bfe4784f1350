import Verif.Model.Serde
import Verif.Model.Text

/-!
# Texts of the errors of the command codec

`Err` (the model's error values) distinguishes the causes; this file gives the text `err.Error()` that the log shows and
the caller sees. The two texts of `encoding/binary` for values without a fixed size differ between Go releases
(`binary.Read: invalid type T`, later `binary.Read: some values are not fixed-sized in type T`): they are a parameter.
-/

namespace Ipod
open Go

/-- What `encoding/binary` says about a value of the named type that has no fixed size, on reading and on writing.
See cmd.go:113-115,154-156. -/
structure BinTexts where
  read : Bytes → Bytes
  write : Bytes → Bytes

/-- Texts that do not depend on where the error arises: package io, packet.go:58,90, general.go:268,274,616,740,
simpleremote.go:63, cmd.go:168. The other errors have their text at the place that makes them (below). -/
def plainText (e : Err) : Bytes :=
  if e = .eof then ascii "EOF"
  else if e = .unexpectedEOF then ascii "unexpected EOF"
  else if e = .noProgress then ascii "multiple Read calls return no data or error"
  else if e = .shortWrite then ascii "short write"
  else if e = .tooLong then ascii "bufio.Scanner: token too long"
  else if e = Err.checksum then ascii "invalid checksum"
  else if e = Err.emptyPacket then ascii "packet encode: empty packet"
  else if e = Err.shortPacket then ascii "short packet"
  else if e = Err.unknownToken then ascii "unknown token"
  else if e = Err.unknownAck then ascii "unknown ack"
  else if e = Err.invalidData then ascii "invalid data"
  else if e = Err.payloadNotKnown then ascii "payload not known"
  else []

/-- dispremote.go:329-366: the type of `s.Info` handed to `binary.Read`, as `reflect` writes it. -/
def dispTrackPtrName (ty : UInt8) : Bytes :=
  if ty = 0x00 then ascii "*dispremote.TrackInfoCaps"
  else if ty = 0x01 then ascii "*dispremote.TrackInfoChapterTimeName"
  else if ty = 0x02 then ascii "*dispremote.TrackInfoArtist"
  else if ty = 0x03 then ascii "*dispremote.TrackInfoAlbum"
  else if ty = 0x04 then ascii "*dispremote.TrackInfoGenre"
  else if ty = 0x05 then ascii "*dispremote.TrackInfoTrack"
  else if ty = 0x06 then ascii "*dispremote.TrackInfoComposer"
  else if ty = 0x07 then ascii "*dispremote.TrackInfoLyrics"
  else ascii "*dispremote.TrackInfoArtworkCount"

/-- The error of an `UnmarshalBinary`: general.go:539 and dispremote.go:242,369 for unknown kinds, `binary.Read` of a
track info with a text (dispremote.go:371), else as above. -/
def codecText (lib : BinTexts) (t : TypeId) (data : Bytes) (e : Err) : Bytes :=
  if e = Err.unknownInfo then
    if t = .gen .SetFIDTokenValues then ascii "unknown AccInfoToken type" else ascii "unknown info type"
  else if e = Err.invalidType then lib.read (dispTrackPtrName (readOrZero .u8 0 data).1)
  else plainText e

/-- The error of `binary.Read` into a new value of the type (cmd.go:154). -/
def structText (lib : BinTexts) (t : TypeId) (e : Err) : Bytes :=
  if e = Err.invalidType then lib.read (ascii "*" ++ ascii t.typeName) else plainText e

/-- cmd.go:147-158: text of the error of decoding the body, if there is one. -/
def bodyText (lib : BinTexts) (t : TypeId) (data : Bytes) : Out (Option Bytes) :=
  match t.unmarshalBinary data with
  | some x =>
    x >>= fun v =>
    match v with
    | .error e => .ret (some (ascii "ipod.Command unmarshal: BinaryUnmarshaler: " ++ codecText lib t data e))
    | .ok _ => .ret none
  | none =>
    match (binRead t.schema data).1 with
    | .error e => .ret (some (ascii "ipod.Command unmarshal: binary.Read: " ++ structText lib t e))
    | .ok _ => .ret none

/-- cmd.go:123-163: text of the error `UnmarshalCmd` returns, if it returns one. The error of reading the transaction
(141-143) is returned as it is. -/
def unmarshalText (lib : BinTexts) (trxEnabled : Bool) (pkt : Bytes) : Out (Option Bytes) :=
  match unmarshalLingoCmdID pkt with
  | (.error e, _) => .ret (some (ascii "ipod.Command unmarshal: " ++ plainText e))
  | (.ok id, r) =>
    match registry.lookup TypeId.size id r.length (handleCmdID trxEnabled id) with
    | none => .ret (some (ascii "ipod.Command unmarshal: unknown cmd " ++ LingoCmdID.string id))
    | some (t, false) => bodyText lib t r
    | some (t, true) =>
      match binRead [.u16] r with
      | (.error e, _) => .ret (some (plainText e))
      | (.ok _, r) => bodyText lib t r

/-- cmd.go:90-121: text of the error `MarshalCmd` returns, if it returns one. The payload is a pointer, hence the `*`. -/
def marshalText (lib : BinTexts) (cmd : Command) : Option Bytes :=
  match cmd.payload with
  | .nil => some (ascii "ipod.Command marshal: nil payload")
  | .unknown _ => none
  | .ptr t v =>
    match t.marshalBinary v with
    | some (.error e) => some (ascii "ipod.Command marshal: BinaryMarshaler: " ++ plainText e)
    | some (.ok _) => none
    | none =>
      match binWrite t.schema v with
      | .error _ => some (ascii "ipod.Command marshal: binary.Write: " ++ lib.write (ascii "*" ++ ascii t.typeName))
      | .ok _ => none

end Ipod
