import Verif.Model.Serde

/-!
# Programs that import some of the lingo packages

The maps of lingo.go:90-91 are filled by the `init` functions of the packages a program imports, in an order Go chooses by
import path and dependencies. `registry` (Model/Lingo.lean) is what they are in cmd/ipod, which imports all five; here they are a
parameter of the functions that consult them.
-/

namespace Ipod
open Go

/-- The five lingo packages. See cmd/ipod/main.go:17-21. -/
inductive Pkg where
  | audio
  | dispRemote
  | extRemote
  | general
  | simpleRemote
deriving DecidableEq, Repr

/-- The lingo of a package (lingo.go:196-207). -/
def Pkg.lingo : Pkg → UInt8
  | .audio => lingoDigitalAudioID
  | .dispRemote => lingoDisplayRemoteID
  | .extRemote => lingoExtRemoteID
  | .general => lingoGeneralID
  | .simpleRemote => lingoSimpleRemoteID

/-- The messages of a package, in the order of its `Lingos` struct.
See lingo-audio/audio.go:14-21, lingo-dispremote/dispremote.go:15-49, lingo-extremote/extremote.go:15-80,
lingo-general/general.go:19-95, lingo-simpleremote/simpleremote.go:16-38. -/
def Pkg.fields : Pkg → List (Option UInt16 × TypeId)
  | .audio => AudT.all.map fun t => (some t.cmdID, .aud t)
  | .dispRemote => DispT.all.map fun t => (some t.cmdID, .disp t)
  | .extRemote => ExtT.all.map fun t => (some t.cmdID, .ext t)
  | .general => GenT.all.map fun t => (some t.cmdID, .gen t)
  | .simpleRemote => SimT.all.map fun t => (some t.cmdID, .sim t)

/-- `init` of a package (lingo-audio/audio.go:10-12, lingo-dispremote/dispremote.go:11-13, lingo-extremote/extremote.go:11-13,
lingo-general/general.go:15-17, lingo-simpleremote/simpleremote.go:12-14). -/
def Pkg.init (r : Registry TypeId) (p : Pkg) : Registry TypeId := (r.registerLingos p.lingo p.fields).1

/-- The maps in a program whose `init` functions have run in this order.
See lingo-audio/audio.go:10-12 and the other four `init` functions. -/
def imported (pkgs : List Pkg) : Registry TypeId := pkgs.foldl Pkg.init Registry.empty

/-- cmd.go:123-163 `UnmarshalCmd`, as `unmarshalCmd`. -/
def unmarshalCmdIn (reg : Registry TypeId) (trxEnabled : Bool) (pkt : Bytes) : Out (Bool × Command × Option Err) :=
  match unmarshalLingoCmdID pkt with
  | (.error e, _) => .ret (trxEnabled, Command.zero, some e)
  | (.ok id, r) =>
    let trxEnabled := handleCmdID trxEnabled id
    match reg.lookup TypeId.size id r.length trxEnabled with
    | none => .ret (trxEnabled, ⟨id, none, .unknown r⟩, some Err.unknownCmd)
    | some (t, false) =>
      decodePayload t r >>= fun p =>
      match p with
      | .error e => .ret (trxEnabled, ⟨id, none, .nil⟩, some e)
      | .ok v => .ret (trxEnabled, ⟨id, none, .ptr t v⟩, none)
    | some (t, true) =>
      match binRead [.u16] r with
      | (.error e, _) => .ret (trxEnabled, ⟨id, none, .nil⟩, some e)
      | (.ok (tr, _), r) =>
        decodePayload t r >>= fun p =>
        match p with
        | .error e => .ret (trxEnabled, ⟨id, some tr, .nil⟩, some e)
        | .ok v => .ret (trxEnabled, ⟨id, some tr, .ptr t v⟩, none)

/-- cmd.go:165-175 `BuildCommand`, as `buildCommand`. -/
def buildCommandIn (reg : Registry TypeId) : Payload → Out (Except Err Command)
  | .nil => .panic
  | .unknown _ => .panic
  | .ptr t v =>
    match reg.lookupID t with
    | none => .ret (.error Err.payloadNotKnown)
    | some id => .ret (.ok ⟨id, none, .ptr t v⟩)

/-- cmd.go:177-185 `Respond`, as `respond`. -/
def respondIn (reg : Registry TypeId) (req : Command) (out : List Command) (payload : Payload) : Out (List Command) :=
  buildCommandIn reg payload >>= fun c =>
  match c with
  | .error _ => .ret out
  | .ok cmd => .ret (out ++ [{ cmd with trx := req.trx }])

/-- cmd.go:197-204 `Send`, as `send`. -/
def sendIn (reg : Registry TypeId) (counter : UInt32) (out : List Command) (payload : Payload) : Out (UInt32 × List Command) :=
  buildCommandIn reg payload >>= fun c =>
  match c with
  | .error _ => .ret (counter, out)
  | .ok cmd =>
    let (counter, tr) := trxNext counter
    .ret (counter, out ++ [{ cmd with trx := some tr }])

end Ipod
