import Verif.Model.Lingo

/-! Specification of the message registry: what a sequence of registrations means. -/

namespace Spec
open Go

/-- The id of command `cmd` of lingo `lingo`: lingo in the high half, command in the low half. -/
def idOf (lingo : UInt8) (cmd : UInt16) : UInt32 := UInt32.ofNat (lingo.toNat * 65536 + cmd.toNat)

/-- The registrations performed by one call: all fields before the first malformed tag. -/
def callRegistrations {T : Type} (lingo : UInt8) : List (Option UInt16 × T) → List (UInt32 × T)
  | (some c, t) :: fs => (idOf lingo c, t) :: callRegistrations lingo fs
  | _ => []

/-- The registrations performed by a sequence of calls. -/
def registrations {T : Type} (calls : List (UInt8 × List (Option UInt16 × T))) : List (UInt32 × T) :=
  (calls.map fun c => callRegistrations c.1 c.2).flatten

/-- The types registered under `id`, in order. -/
def candidates {T : Type} (regs : List (UInt32 × T)) (id : UInt32) : List T :=
  (regs.filter fun r => r.1 = id).map (·.2)

/-- Does a candidate of encoded size `size` (`none`: variable) fit a payload of `n` bytes, and if so is a
two-byte transaction in front? -/
inductive Fits (size : Option Nat) (n : Nat) : Bool → Prop
  | plain : size = some n → Fits size n false
  | withTrx {m} : size = some m → m + 2 = n → Fits size n true

/-- Result of looking up a payload of `n` bytes among candidates. -/
inductive Found {T : Type} (size : T → Option Nat) (n : Nat) (dflt : Bool) (cs : List T) : T → Bool → Prop
  | fits {pre t post b} : cs = pre ++ t :: post → (∀ p ∈ pre, ∀ b, ¬ Fits (size p) n b) →
      Fits (size t) n b → Found size n dflt cs t b
  | sole {t} : cs = [t] → (∀ b, ¬ Fits (size t) n b) → Found size n dflt cs t dflt

/-- A command id fits the width its lingo has on the wire. -/
def IdFits (id : UInt32) : Prop :=
  ∃ (lingo : UInt8) (cmd : UInt16), id = idOf lingo cmd ∧ (lingo = 0x04 ∨ cmd.toNat < 256)

/-- The wire form of a command id: the lingo byte, then the command in two bytes (big endian) for
Extended Remote (0x04), one byte otherwise. -/
def idBytes (lingo : UInt8) (cmd : UInt16) : Bytes :=
  if lingo = 0x04 then [lingo, UInt8.ofNat (cmd.toNat / 256), UInt8.ofNat (cmd.toNat % 256)]
  else [lingo, UInt8.ofNat (cmd.toNat % 256)]

end Spec
