import Verif.Model.Codecs

/-! Model of cmd.go: commands, the serializer and the transaction counter. -/

namespace Ipod
open Go

/-- Dynamic values of `Command.Payload` (cmd.go:32): nil, a pointer to one of the registered message structs, or
`UnknownPayload` (cmd.go:17). Payloads of other Go types: `Model/Any.lean`. -/
inductive Payload where
  | nil
  | ptr (t : TypeId) (v : t.Val)
  | unknown (b : Bytes)

instance : DecidableEq Payload
  | .nil, .nil => isTrue rfl
  | .unknown a, .unknown b => if h : a = b then isTrue (by rw [h]) else isFalse (by simpa using h)
  | .ptr t v, .ptr s w =>
    if h : t = s then
      match SVal.decEq s.schema (h ▸ v) w with
      | isTrue e => isTrue (by subst h; simp only at e; rw [e])
      | isFalse e => isFalse (by subst h; intro c; injection c with _ c; exact e c)
    else isFalse (by intro c; injection c with c; exact h c)
  | .nil, .ptr _ _ => isFalse (by simp)
  | .nil, .unknown _ => isFalse (by simp)
  | .ptr _ _, .nil => isFalse (by simp)
  | .ptr _ _, .unknown _ => isFalse (by simp)
  | .unknown _, .nil => isFalse (by simp)
  | .unknown _, .ptr _ _ => isFalse (by simp)

/-- cmd.go:28-33 `Command`. The `*Transaction` is modelled by its value (the pointer identity is the subject of
`Model/Trx.lean`). -/
structure Command where
  id : LingoCmdID
  trx : Option UInt16
  payload : Payload
deriving DecidableEq

/-- cmd.go:124 `var cmd Command`. -/
def Command.zero : Command := ⟨0, none, .nil⟩

/-- cmd.go:68-88 `handleCmdID` (its warnings are in `Model/Log.lean`). -/
def handleCmdID (trxEnabled : Bool) (id : LingoCmdID) : Bool :=
  if id = newLingoCmdID lingoGeneralID.toUInt16 0x00 then false
  else if id = newLingoCmdID lingoGeneralID.toUInt16 0x13 then false
  else if id = newLingoCmdID lingoGeneralID.toUInt16 0x38 then true
  else trxEnabled

/-- cmd.go:102-117: encoding of the payload. `binary.Write` of an `UnknownPayload` writes its bytes. -/
def encodePayload : Payload → Except Err Bytes
  | .nil => .error Err.nilPayload
  | .unknown b => .ok b
  | .ptr t v =>
    match t.marshalBinary v with
    | some r => r
    | none => binWrite t.schema v

/-- cmd.go:90-121 `MarshalCmd`: new mode of the serializer, and the packet or the error. -/
def marshalCmd (trxEnabled : Bool) (cmd : Command) : Bool × Except Err Bytes :=
  let pktBuf := marshalLingoCmdID cmd.id
  let trxEnabled := handleCmdID trxEnabled cmd.id
  let pktBuf :=
    match cmd.trx with
    | some t => if trxEnabled then pktBuf ++ FTy.enc .u16 t else pktBuf
    | none => pktBuf
  match encodePayload cmd.payload with
  | .error e => (trxEnabled, .error e)
  | .ok b => (trxEnabled, .ok (pktBuf ++ b))

/-- cmd.go:147-161: decoding the payload into a new value of the looked-up type. -/
def decodePayload (t : TypeId) (r : Bytes) : Out (Except Err t.Val) :=
  match t.unmarshalBinary r with
  | some x => x
  | none => .ret (binRead t.schema r).1

/-- cmd.go:123-163 `UnmarshalCmd`: new mode of the serializer, the command and the error (if any). -/
def unmarshalCmd (trxEnabled : Bool) (pkt : Bytes) : Out (Bool × Command × Option Err) :=
  match unmarshalLingoCmdID pkt with
  | (.error e, _) => .ret (trxEnabled, Command.zero, some e)
  | (.ok id, r) =>
    let trxEnabled := handleCmdID trxEnabled id
    match registry.lookup TypeId.size id r.length trxEnabled with
    | none => .ret (trxEnabled, ⟨id, none, .unknown r⟩, some Err.unknownCmd)
    | some (t, false) =>
      decodePayload t r >>= fun p =>
      match p with
      | .error e => .ret (trxEnabled, ⟨id, none, .nil⟩, some e)
      | .ok v => .ret (trxEnabled, ⟨id, none, .ptr t v⟩, none)
    | some (t, true) =>
      match binRead [.u16] r with
      | (.error e, _) => .ret (trxEnabled, ⟨id, none, .nil⟩, some e)
      | (.ok (tr, _), r) =>
        decodePayload t r >>= fun p =>
        match p with
        | .error e => .ret (trxEnabled, ⟨id, some tr, .nil⟩, some e)
        | .ok v => .ret (trxEnabled, ⟨id, some tr, .ptr t v⟩, none)

/-- cmd.go:165-175 `BuildCommand`; `LookupID` (lingo.go:138-145) panics on a payload that is not a pointer
(nil: `reflect.TypeOf(nil).Kind()` is a nil dereference). -/
def buildCommand : Payload → Out (Except Err Command)
  | .nil => .panic
  | .unknown _ => .panic
  | .ptr t v =>
    match registry.lookupID t with
    | none => .ret (.error Err.payloadNotKnown)
    | some id => .ret (.ok ⟨id, none, .ptr t v⟩)

/-- cmd.go:177-185 `Respond`: the commands handed to the writer. The writer is a `CmdBuffer`
(cmd.go:206-213), whose `WriteCommand` appends and never fails. -/
def respond (req : Command) (out : List Command) (payload : Payload) : Out (List Command) :=
  buildCommand payload >>= fun c =>
  match c with
  | .error _ => .ret out
  | .ok cmd => .ret (out ++ [{ cmd with trx := req.trx }])

/-- cmd.go:189-191 `TrxReset`. -/
def trxReset : UInt32 := 0

/-- cmd.go:192-195 `TrxNext`: new counter and the transaction. -/
def trxNext (counter : UInt32) : UInt32 × UInt16 := (counter + 1, (counter + 1).toUInt16)

/-- cmd.go:197-204 `Send`. -/
def send (counter : UInt32) (out : List Command) (payload : Payload) : Out (UInt32 × List Command) :=
  buildCommand payload >>= fun c =>
  match c with
  | .error _ => .ret (counter, out)
  | .ok cmd =>
    let (counter, tr) := trxNext counter
    .ret (counter, out ++ [{ cmd with trx := some tr }])

end Ipod
