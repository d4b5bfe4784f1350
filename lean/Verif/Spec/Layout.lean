import Verif.Model.Schema

/-!
# Specification of the wire layout of fixed-size messages

Written without the encoder: the value of a big or little endian number is a positional sum, and the layout of a
struct is a relation between values and byte strings.
-/

namespace Spec
open Go Ipod

/-- Value of a big-endian byte string: the last byte counts 1, each byte before counts 256 times more. -/
def beVal : Bytes → Nat
  | [] => 0
  | x :: xs => x.toNat * 256 ^ xs.length + beVal xs

/-- Value of a little-endian byte string. -/
def leVal : Bytes → Nat
  | [] => 0
  | x :: xs => x.toNat + 256 * leVal xs

/-- `b` is the big-endian form of `n` in `w` bytes. -/
def IsBE (w n : Nat) (b : Bytes) : Prop := b.length = w ∧ beVal b = n

/-- `b` is the two's complement big-endian form of the integer `n` in `w` bytes. -/
def IsBESigned (w : Nat) (n : Int) (b : Bytes) : Prop :=
  b.length = w ∧ (beVal b : Int) = n % (256 ^ w : Nat)

/-- `b` is the wire form of the field value `v`. Slices and interfaces have none. -/
def FieldBytes : (f : FTy) → f.denote → Bytes → Prop
  | .u8, v, b => IsBE 1 v.toNat b
  | .u16, v, b => IsBE 2 v.toNat b
  | .u32, v, b => IsBE 4 v.toNat b
  | .u64, v, b => IsBE 8 v.toNat b
  | .i16, v, b => IsBESigned 2 v.toInt b
  | .i32, v, b => IsBESigned 4 v.toInt b
  | .bool, v, b => b = [if v then (1 : UInt8) else 0]
  | .arr n, v, b => b.length = n ∧ b = v.1
  | _, _, _ => False

/-- The number of bytes of a field of fixed size. -/
def fieldWidth : FTy → Option Nat
  | .u8 => some 1
  | .u16 => some 2
  | .u32 => some 4
  | .u64 => some 8
  | .i16 => some 2
  | .i32 => some 4
  | .bool => some 1
  | .arr n => some n
  | _ => none

/-- All fields have fixed size, `n` bytes altogether. -/
inductive FixedSize : List FTy → Nat → Prop
  | nil : FixedSize [] 0
  | cons {f fs w n} : fieldWidth f = some w → FixedSize fs n → FixedSize (f :: fs) (w + n)

/-- `b` is the wire form of the struct value: the fields' wire forms in order, nothing else. -/
inductive StructBytes : (fs : List FTy) → SVal fs → Bytes → Prop
  | nil : StructBytes [] () []
  | cons {f fs v vs b bs} : FieldBytes f v b → StructBytes fs vs bs → StructBytes (f :: fs) (v, vs) (b ++ bs)

end Spec
