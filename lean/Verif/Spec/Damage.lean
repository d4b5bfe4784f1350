import Verif.Spec.Wire

/-! # Specification: damage on the way (C100) -/

namespace Spec
open Go

/-- Two byte strings with the same sum modulo 256. -/
def SameSum (a b : Bytes) : Prop := byteSum a % 256 = byteSum b % 256

instance (a b : Bytes) : Decidable (SameSum a b) := inferInstanceAs (Decidable (_ = _))

/-- The byte with bit `k` inverted. -/
def flipBit (b : UInt8) (k : Fin 8) : UInt8 := b ^^^ UInt8.ofNat (2 ^ k.val)

/-- Whether bit `k` is set. -/
def hasBit (b : UInt8) (k : Fin 8) : Bool := b.toNat / 2 ^ k.val % 2 = 1

/-- Two inverted bits that no sum of bytes shows: the same bit, set in one byte and not in the other; or the highest bit of
both. -/
def Unnoticed (a : UInt8) (k : Fin 8) (b : UInt8) (l : Fin 8) : Prop := k = l ∧ (k = 7 ∨ hasBit a k ≠ hasBit b k)

instance (a : UInt8) (k : Fin 8) (b : UInt8) (l : Fin 8) : Decidable (Unnoticed a k b l) := inferInstanceAs (Decidable (_ ∧ _))

/-- The outcomes of reading a damaged packet with filler before it: the checksum error with everything behind the start byte
still to read, or a payload taken for genuine with `rest` still to read. -/
def noticed (behind spare : Bytes) : Slice × Except Err Bytes := (⟨behind, spare⟩, .error Err.checksum)

end Spec
