import Verif.Spec.Messages
import Verif.Spec.Registry
import Verif.Model.Serde

/-! Specification of the serializer: transaction mode and packet layout. -/

namespace Spec
open Go Ipod

/-- Something passing through the serializer. -/
inductive SerdeOp
  | send (cmd : Command)
  | receive (pkt : Bytes)

/-- The mode a command id asks for: RequestIdentify (0x00) and IdentifyDeviceLingoes (0x13) of the general lingo
switch transactions off, StartIDPS (0x38) switches them on. -/
def switchOfId (id : UInt32) : Option Bool :=
  if id = idOf 0x00 0x00 then some false
  else if id = idOf 0x00 0x13 then some false
  else if id = idOf 0x00 0x38 then some true
  else none

/-- The mode asked for by a command sent or a packet received. -/
def switchOf : SerdeOp → Option Bool
  | .send cmd => switchOfId cmd.id
  | .receive (0x00 :: 0x00 :: _) => some false
  | .receive (0x00 :: 0x13 :: _) => some false
  | .receive (0x00 :: 0x38 :: _) => some true
  | .receive _ => none

/-- The last switch decides. -/
def modeAfter (init : Bool) (ops : List SerdeOp) : Bool := ((ops.filterMap switchOf).getLast?).getD init

/-- The two bytes of a transaction on the wire. -/
def transactionBytes : Option UInt16 → Bytes
  | none => []
  | some t => [UInt8.ofNat (t.toNat / 256), UInt8.ofNat (t.toNat % 256)]

/-- The wire form of a payload: raw bytes as they are, messages with an own codec through it, all other messages field
by field. -/
inductive PayloadBytes : Payload → Bytes → Prop
  | raw (b) : PayloadBytes (.unknown b) b
  | own {t v b} : TypeId.marshalBinary t v = some (.ok b) → PayloadBytes (.ptr t v) b
  | struct {t v b n} : TypeId.marshalBinary t v = none → FixedSize t.schema n → StructBytes t.schema v b →
      PayloadBytes (.ptr t v) b

end Spec
