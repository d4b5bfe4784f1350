import Verif.Model.Values

/-!
# `encoding/binary` on message structs

Field types, struct values, and `binary.Size` / `binary.Write` / `binary.Read` (big endian) over them.
The Go functions walk the struct by reflection; here the walk is by recursion over the schema.
-/

namespace Ipod
open Go

/-- Field types occurring in the message structs. See lingo-general/general.go:97-906. -/
inductive FTy where
  | u8 | u16 | u32 | u64 | i16 | i32 | bool
  /-- `[n]byte` -/
  | arr (n : Nat)
  /-- `[]byte` -/
  | bytes
  /-- `[]uint32` -/
  | u32s
  /-- `[]ArtworkFormat` -/
  | artworks
  /-- `[]FIDTokenValue` -/
  | fidTokens
  /-- `[]FIDTokenValueACK` -/
  | fidAcks
  /-- `interface{}` fields -/
  | extInfo | dispState | dispTrack
  /-- the blank field `_ []byte` of lingo-simpleremote/simpleremote.go:42,119, never assigned -/
  | blank
deriving DecidableEq, Repr

/-- The values of a field. See lingo-general/general.go:97-906. -/
@[reducible] def FTy.denote : FTy → Type
  | .u8 => UInt8
  | .u16 => UInt16
  | .u32 => UInt32
  | .u64 => UInt64
  | .i16 => Int16
  | .i32 => Int32
  | .bool => Bool
  | .arr n => { b : Bytes // b.length = n }
  | .bytes => Bytes
  | .u32s => List UInt32
  | .artworks => List ArtworkFormat
  | .fidTokens => List FIDTokenValue
  | .fidAcks => List FIDTokenValueACK
  | .extInfo => ExtInfo
  | .dispState => DispState
  | .dispTrack => DispTrack
  | .blank => Unit

instance FTy.decEq : (f : FTy) → DecidableEq f.denote
  | .u8 => inferInstanceAs (DecidableEq UInt8)
  | .u16 => inferInstanceAs (DecidableEq UInt16)
  | .u32 => inferInstanceAs (DecidableEq UInt32)
  | .u64 => inferInstanceAs (DecidableEq UInt64)
  | .i16 => inferInstanceAs (DecidableEq Int16)
  | .i32 => inferInstanceAs (DecidableEq Int32)
  | .bool => inferInstanceAs (DecidableEq Bool)
  | .arr n => inferInstanceAs (DecidableEq { b : Bytes // b.length = n })
  | .bytes => inferInstanceAs (DecidableEq Bytes)
  | .u32s => inferInstanceAs (DecidableEq (List UInt32))
  | .artworks => inferInstanceAs (DecidableEq (List ArtworkFormat))
  | .fidTokens => inferInstanceAs (DecidableEq (List FIDTokenValue))
  | .fidAcks => inferInstanceAs (DecidableEq (List FIDTokenValueACK))
  | .extInfo => inferInstanceAs (DecidableEq ExtInfo)
  | .dispState => inferInstanceAs (DecidableEq DispState)
  | .dispTrack => inferInstanceAs (DecidableEq DispTrack)
  | .blank => inferInstanceAs (DecidableEq Unit)

/-- Encoded size of a field *inside a struct*: `none` (-1) for slices and interfaces
(encoding/binary `sizeof`: only fixed-size kinds have a size). See lingo.go:192-194. -/
def FTy.size : FTy → Option Nat
  | .u8 | .bool => some 1
  | .u16 | .i16 => some 2
  | .u32 | .i32 => some 4
  | .u64 => some 8
  | .arr n => some n
  | _ => none

/-- Encoding of a fixed-size field. See cmd.go:113. -/
def FTy.enc : (f : FTy) → f.denote → Bytes
  | .u8, v => [v]
  | .bool, v => [if v then 1 else 0]
  | .u16, v => beEnc 2 v.toNat
  | .u32, v => beEnc 4 v.toNat
  | .u64, v => beEnc 8 v.toNat
  | .i16, v => beEnc 2 v.toUInt16.toNat
  | .i32, v => beEnc 4 v.toUInt32.toNat
  | .arr _, v => v.1
  | _, _ => []

/-- Decoding of a fixed-size field from exactly its bytes (`none` if there are not exactly as many). See cmd.go:154. -/
def FTy.dec : (f : FTy) → Bytes → Option f.denote
  | .u8, b => match b with | [x] => some x | _ => none
  | .bool, b => match b with | [x] => some (decide (x ≠ 0)) | _ => none
  | .u16, b => if b.length = 2 then some (UInt16.ofNat (beDec b)) else none
  | .u32, b => if b.length = 4 then some (UInt32.ofNat (beDec b)) else none
  | .u64, b => if b.length = 8 then some (UInt64.ofNat (beDec b)) else none
  | .i16, b => if b.length = 2 then some (UInt16.ofNat (beDec b)).toInt16 else none
  | .i32, b => if b.length = 4 then some (UInt32.ofNat (beDec b)).toInt32 else none
  | .arr n, b => if h : b.length = n then some ⟨b, h⟩ else none
  | _, _ => none

/-- Values of a struct with the given fields. See lingo-general/general.go:97-906. -/
@[reducible] def SVal : List FTy → Type
  | [] => Unit
  | f :: fs => f.denote × SVal fs

instance SVal.decEq : (fs : List FTy) → DecidableEq (SVal fs)
  | [] => inferInstanceAs (DecidableEq Unit)
  | f :: fs => @instDecidableEqProd _ _ (FTy.decEq f) (SVal.decEq fs)

/-- `binary.Size` of (a pointer to) such a struct; `none` is -1. See lingo.go:192-194. -/
def structSize : List FTy → Option Nat
  | [] => some 0
  | f :: fs => do
    let n ← f.size
    let m ← structSize fs
    some (n + m)

/-- The bytes of a fixed-size struct: field after field. See cmd.go:113. -/
def encStruct : (fs : List FTy) → SVal fs → Bytes
  | [], _ => []
  | f :: fs, v => f.enc v.1 ++ encStruct fs v.2

/-- Decoding from a buffer of (at least) the right size, field after field. See cmd.go:154. -/
def decStruct : (fs : List FTy) → Bytes → Option (SVal fs)
  | [], _ => some ()
  | f :: fs, b => do
    let n ← f.size
    let v ← f.dec (b.take n)
    let vs ← decStruct fs (b.drop n)
    some (v, vs)

/-- `binary.Write(w, BigEndian, &struct)`: the bytes written, or "invalid type" and nothing written. See cmd.go:113. -/
def binWrite (fs : List FTy) (v : SVal fs) : Except Err Bytes :=
  match structSize fs with
  | none => .error Err.invalidType
  | some _ => .ok (encStruct fs v)

/-- `binary.Read(r, BigEndian, &struct)` from a reader over a byte string: the value or the error, and what
is left in the reader. `io.ReadFull` semantics: nothing available is `io.EOF`, too little is
`io.ErrUnexpectedEOF` (and everything is consumed); a size-0 struct reads nothing and succeeds;
a struct without size is rejected before reading. See cmd.go:154. -/
def binRead (fs : List FTy) (r : Bytes) : Except Err (SVal fs) × Bytes :=
  match structSize fs with
  | none => (.error Err.invalidType, r)
  | some n =>
    if r.length < n then
      (.error (if r.length = 0 then .eof else .unexpectedEOF), [])
    else
      match decStruct fs (r.take n) with
      | some v => (.ok v, r.drop n)
      | none => (.error Err.invalidType, r.drop n)  -- unreachable, see `decStruct_isSome`

end Ipod
