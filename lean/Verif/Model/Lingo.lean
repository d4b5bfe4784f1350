import Verif.Model.Types

/-! Model of lingo.go -/

namespace Ipod
open Go

/-- lingo.go:14 `LingoCmdID`. -/
abbrev LingoCmdID := UInt32

/-- lingo.go:16-18 `LingoID`: `uint8(id >> 16 & 0xff)`. -/
def LingoCmdID.lingoID (id : LingoCmdID) : UInt8 := ((id >>> 16) &&& 0xff).toUInt8

/-- lingo.go:20-22 `CmdID`: `uint16(id & 0xffff)`. -/
def LingoCmdID.cmdID (id : LingoCmdID) : UInt16 := (id &&& 0xffff).toUInt16

/-- lingo.go:196-207 lingo ids. -/
abbrev lingoGeneralID : UInt8 := 0x00
/-- See lingo.go:198. -/
abbrev lingoSimpleRemoteID : UInt8 := 0x02
/-- See lingo.go:199. -/
abbrev lingoDisplayRemoteID : UInt8 := 0x03
/-- See lingo.go:200. -/
abbrev lingoExtRemoteID : UInt8 := 0x04
/-- See lingo.go:205. -/
abbrev lingoDigitalAudioID : UInt8 := 0x0A

/-- lingo.go:32-39 `cmdIDLen`. -/
def cmdIDLen (lingo : UInt8) : Nat := if lingo = lingoExtRemoteID then 2 else 1

/-- lingo.go:81-83 `NewLingoCmdID`. -/
def newLingoCmdID (lingo cmd : UInt16) : LingoCmdID := (lingo.toUInt32 <<< 16) ||| cmd.toUInt32

/-- lingo.go:41-52 `marshalLingoCmdID`: the bytes written (writing to a buffer cannot fail). -/
def marshalLingoCmdID (id : LingoCmdID) : Bytes :=
  FTy.enc .u8 id.lingoID ++
    (if cmdIDLen id.lingoID = 2 then FTy.enc .u16 id.cmdID else FTy.enc .u8 id.cmdID.toUInt8)

/-- lingo.go:54-79 `unmarshalLingoCmdID`: the id (or the error of `binary.Read`) and the unread rest. -/
def unmarshalLingoCmdID (r : Bytes) : Except Err LingoCmdID × Bytes :=
  match binRead [.u8] r with
  | (.error e, r1) => (.error e, r1)
  | (.ok (lingo, ()), r1) =>
    if cmdIDLen lingo = 2 then
      match binRead [.u16] r1 with
      | (.error e, r2) => (.error e, r2)
      | (.ok (cmd, ()), r2) => (.ok (newLingoCmdID lingo.toUInt16 cmd), r2)
    else
      match binRead [.u8] r1 with
      | (.error e, r2) => (.error e, r2)
      | (.ok (cmd, ()), r2) => (.ok (newLingoCmdID lingo.toUInt16 cmd.toUInt16), r2)

/-! ### Go maps as association lists

Iteration order of a Go map is unspecified; code that iterates is modelled over an arbitrary permutation
(`dumpLingos`). -/

/-- `m[k]`. See lingo.go:94,143,157. -/
def mapGet {K V : Type} [DecidableEq K] (m : List (K × V)) (k : K) : Option V :=
  match m with
  | [] => none
  | (k', v) :: m => if k' = k then some v else mapGet m k

/-- `m[k] = v`. See lingo.go:94-95. -/
def mapSet {K V : Type} [DecidableEq K] (m : List (K × V)) (k : K) (v : V) : List (K × V) :=
  match m with
  | [] => [(k, v)]
  | (k', v') :: m => if k' = k then (k, v) :: m else (k', v') :: mapSet m k v

/-- lingo.go:90-91: the two global maps `mIDToType` and `mTypeToID`. -/
structure Registry (T : Type) where
  idToType : List (LingoCmdID × List T)
  typeToID : List (T × LingoCmdID)

/-- The maps before any `init` (lingo.go:90-91). -/
def Registry.empty {T : Type} : Registry T := ⟨[], []⟩

/-- lingo.go:93-96 `storeMapping` (`append` to a missing entry starts from nil). -/
def Registry.storeMapping {T : Type} [DecidableEq T] (r : Registry T) (cmd : LingoCmdID) (t : T) :
    Registry T :=
  ⟨mapSet r.idToType cmd ((mapGet r.idToType cmd).getD [] ++ [t]), mapSet r.typeToID t cmd⟩

/-- lingo.go:99-113 `RegisterLingos`. The fields of the struct are given as (parsed id tag, type); the tag is
`none` when `parseIdTag` (lingo.go:85-88) fails, which stops the registration with an error.
The text of the tags and `parseIdTag` are in Model/Tags.lean. -/
def Registry.registerLingos {T : Type} [DecidableEq T] (r : Registry T) (lingo : UInt8) :
    List (Option UInt16 × T) → Registry T × Option Err
  | [] => (r, none)
  | (none, _) :: _ => (r, some Err.parseTag)
  | (some c, t) :: fs => (r.storeMapping (newLingoCmdID lingo.toUInt16 c) t).registerLingos lingo fs

/-- lingo.go:138-145 `LookupID` for a pointer payload of type `t` (a non-pointer panics, see `buildCommand`). -/
def Registry.lookupID {T : Type} [DecidableEq T] (r : Registry T) (t : T) : Option LingoCmdID :=
  mapGet r.typeToID t

/-- lingo.go:161-180: the search loop of `Lookup`; `payloadSize - 2` is an `int` and may be negative. -/
def lookupLoop {T : Type} (size : T → Option Nat) (payloadSize : Nat) : List T → Option (T × Bool)
  | [] => none
  | p :: ps =>
    match size p with
    | none => lookupLoop size payloadSize ps
    | some cmdSize =>
      if (cmdSize : Int) = payloadSize then some (p, false)
      else if (cmdSize : Int) = (payloadSize : Int) - 2 then some (p, true)
      else lookupLoop size payloadSize ps

/-- lingo.go:156-190 `Lookup`: payload type and whether a transaction is present. `size` is `binarySize`
(lingo.go:192-194) of the types. -/
def Registry.lookup {T : Type} [DecidableEq T] (r : Registry T) (size : T → Option Nat) (id : LingoCmdID)
    (payloadSize : Nat) (defaultTrx : Bool) : Option (T × Bool) :=
  match mapGet r.idToType id with
  | none => none
  | some payloads =>
    match lookupLoop size payloadSize payloads with
    | some x => some x
    | none =>
      match payloads with
      | [p] => some (p, defaultTrx)
      | _ => none

/-- The `init` functions of the five lingo packages, in the dependency order of cmd/ipod/main.go:16-22
(audio, dispremote, extremote, general, simpleremote: lingo-audio/audio.go:10-12,
lingo-dispremote/dispremote.go:11-13, lingo-extremote/extremote.go:11-13, lingo-general/general.go:15-17,
lingo-simpleremote/simpleremote.go:12-14). -/
@[irreducible] def registry : Registry TypeId :=
  let r := Registry.empty
  let r := (r.registerLingos lingoDigitalAudioID (AudT.all.map fun t => (some t.cmdID, .aud t))).1
  let r := (r.registerLingos lingoDisplayRemoteID (DispT.all.map fun t => (some t.cmdID, .disp t))).1
  let r := (r.registerLingos lingoExtRemoteID (ExtT.all.map fun t => (some t.cmdID, .ext t))).1
  let r := (r.registerLingos lingoGeneralID (GenT.all.map fun t => (some t.cmdID, .gen t))).1
  (r.registerLingos lingoSimpleRemoteID (SimT.all.map fun t => (some t.cmdID, .sim t))).1

/-- `binary.Size` of a pointer to a zero value of the type (lingo.go:192-194). -/
def TypeId.size (t : TypeId) : Option Nat := structSize t.schema

end Ipod
