import Verif.Spec.Serde

/-! Specification: messages with their transaction, and which of them cannot be told apart. -/

namespace Spec
open Go Ipod

/-- A message and the transaction sent with it, if any. -/
structure Msg where
  type : TypeId
  value : type.Val
  trx : Option UInt16

/-- What `BuildCommand` and the serializer in mode `m` make of message `t`, `v` with transaction `trx`: the packet `p`, which shows
the message `x` (the transaction only if the mode, after the command itself, is on). -/
def Sends (m : Bool) (t : TypeId) (v : t.Val) (trx : Option UInt16) (p : Bytes) (x : Msg) : Prop :=
  (∃ cmd, buildCommand (.ptr t v) = .ret (.ok cmd) ∧ (marshalCmd m { cmd with trx := trx }).2 = .ok p) ∧
  x = ⟨t, v, if (switchOfId ((registry.lookupID t).getD 0)).getD m then trx else none⟩

/-- An acknowledgement of dropped data without transaction looks like one of a pending command with a transaction: its first two
bytes, status and command, are taken for the transaction, and the session for status and command. -/
inductive LooksLike : Msg → Msg → Prop
  | dropped (status cmd hi lo : UInt8) (n : UInt32) (session trx : UInt16) :
      session.toNat = 256 * hi.toNat + lo.toNat → trx.toNat = 256 * status.toNat + cmd.toNat →
      LooksLike ⟨.gen .ACKDataDropped, (status, cmd, session, n, ()), none⟩ ⟨.gen .ACKPending, (hi, lo, n, ()), some trx⟩

/-- What a receiver in the same mode can take back: fixed-size messages but the exception, and messages with a codec of their own whose
parts agree, with a transaction just if transactions are on. -/
def Readable (m : Bool) (t : TypeId) (v : t.Val) (trx : Option UInt16) (x : Msg) : Prop :=
  (∃ n, FixedSize t.schema n) ∧ ¬ (t = .gen .ACKDataDropped ∧ x.trx = none) ∨ VarOK t v ∧ ¬ IsTrackText t v ∧ trx.isSome = m

end Spec
