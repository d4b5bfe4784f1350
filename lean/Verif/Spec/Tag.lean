import Verif.Go.Format
import Verif.Spec.Registry

/-! Specification of struct tags and of the numbers in them. -/

namespace Spec
open Go

/-- The value of a hexadecimal digit, of either case. -/
def digitOf (c : UInt8) : Option Nat :=
  let n := c.toNat
  if 48 ≤ n ∧ n ≤ 57 then some (n - 48)
  else if 65 ≤ n ∧ n ≤ 70 then some (n - 55)
  else if 97 ≤ n ∧ n ≤ 102 then some (n - 87)
  else none

/-- Digits of a base. -/
def Digits (base : Nat) (ds : Bytes) : Prop := ∀ c ∈ ds, ∃ d, digitOf c = some d ∧ d < base

/-- The number written with these digits. -/
def numberOf (base : Nat) (ds : Bytes) : Nat := ds.foldl (fun n c => n * base + (digitOf c).getD 0) 0

/-- Digits, in one group or in several separated by single underscores. -/
def Grouped (base : Nat) (text : Bytes) (n : Nat) : Prop :=
  ∃ g gs, (∀ x ∈ g :: gs, x ≠ [] ∧ Digits base x) ∧ text = g ++ gs.flatMap (0x5F :: ·) ∧ n = numberOf base (g ++ gs.flatten)

/-- The letters of the prefixes of integer literals, with their bases. -/
def prefixes : List (UInt8 × Nat) := [(0x62, 2), (0x42, 2), (0x6F, 8), (0x4F, 8), (0x78, 16), (0x58, 16)]

/-- The integer literals of Go: decimal; octal, with a leading zero; or with a prefix, which an underscore may follow. -/
inductive IntLit : Bytes → Nat → Prop
  | decimal {text n} : text.head? ≠ some 0x30 → Grouped 10 text n → IntLit text n
  | octal {text n} : text.head? = some 0x30 → Grouped 8 text n → IntLit text n
  | prefixed {x base body n} : (x, base) ∈ prefixes → Grouped base body n → IntLit (0x30 :: x :: body) n
  | prefixed_ {x base body n} : (x, base) ∈ prefixes → Grouped base body n → IntLit (0x30 :: x :: 0x5F :: body) n

/-- A key and its value in a tag, after some spaces. -/
structure TagPair where
  spaces : Nat
  key : Bytes
  value : Bytes

/-- The text `key:"value"`. -/
def TagPair.text (p : TagPair) : Bytes := List.replicate p.spaces 0x20 ++ p.key ++ [0x3A, 0x22] ++ p.value ++ [0x22]

/-- A key is not empty and has no spaces, control characters, quotes or colons; the value has no quotes, backslashes, newlines
and is ASCII. -/
def TagPair.Plain (p : TagPair) : Prop :=
  p.key ≠ [] ∧ (∀ c ∈ p.key, 0x20 < c ∧ c ≠ 0x7F ∧ c ≠ 0x3A ∧ c ≠ 0x22) ∧
    ∀ c ∈ p.value, c ≠ 0x22 ∧ c ≠ 0x5C ∧ c ≠ 0x0A ∧ c < 0x80

/-- What a tag says about a key: the value of its first pair, nothing if there is none. -/
def tagValue (key : Bytes) (ps : List TagPair) : Bytes := ((ps.find? (·.key = key)).map (·.value)).getD []

/-- The command id a tag gives. -/
def TagID (ps : List TagPair) (id : UInt16) : Prop := IntLit (tagValue (ascii "id") ps) id.toNat

/-- The text of a tag: its pairs, then spaces. -/
def tagText (ps : List TagPair) (spaces : Nat) : Bytes := ps.flatMap (·.text) ++ List.replicate spaces 0x20

/-- What registering the fields of a struct does: every field under the id of its tag, up to the first one whose tag gives none,
which is an error. -/
inductive Registers {T : Type} (lingo : UInt8) : List (List TagPair × T) → List (UInt32 × T) → Bool → Prop
  | done : Registers lingo [] [] false
  | bad {ps t fs} : (∀ id, ¬ TagID ps id) → Registers lingo ((ps, t) :: fs) [] true
  | field {ps t fs id regs failed} : TagID ps id → Registers lingo fs regs failed →
      Registers lingo ((ps, t) :: fs) ((idOf lingo id, t) :: regs) failed

end Spec
