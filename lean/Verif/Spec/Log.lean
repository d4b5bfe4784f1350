import Verif.Spec.Text

/-! Specification of the lines of the log. -/

namespace Spec
open Go

/-- The levels and the letters they are shown with. -/
def levelLetters : List (Nat × String) :=
  [(0, "PANI"), (1, "FATA"), (2, "ERRO"), (3, "WARN"), (4, "INFO"), (5, "DEBU"), (6, "TRAC")]

/-- Colours: debug grey, warnings yellow, errors and worse red, the rest blue. -/
def levelColors : List (Nat × Nat) := [(0, 31), (1, 31), (2, 31), (3, 33), (4, 36), (5, 37), (6, 36)]

/-- The text of a time in microseconds: seconds with at least four digits, six digits of microseconds. -/
def TimeText (us : Nat) (s : Bytes) : Prop :=
  ∃ a b, NumberText 10 4 (us / 1000000) a ∧ NumberText 10 6 (us % 1000000) b ∧ s = a ++ [0x2E] ++ b

/-- Fields one after another: space, key, equals sign, value. -/
inductive FieldTexts : List (Bytes × Bytes) → Bytes → Prop
  | nil : FieldTexts [] []
  | cons {k v l s} : FieldTexts l s → FieldTexts ((k, v) :: l) ([0x20] ++ k ++ [0x3D] ++ v ++ s)

/-- A line: level, time in brackets, the message filled up to 44 characters, the fields by increasing keys. -/
def LogLine (level us : Nat) (message : Bytes) (data : List (Bytes × Bytes)) (text : Bytes) : Prop :=
  ∃ (letters : String) (time pad fields : Bytes) (sorted : List (Bytes × Bytes)),
    (level, letters) ∈ levelLetters ∧ TimeText us time ∧
    (∀ c ∈ pad, c = 0x20) ∧ message.length + pad.length = max 44 message.length ∧
    sorted.Perm data ∧ sorted.Pairwise (fun a b => a.1 < b.1) ∧ FieldTexts sorted fields ∧
    text = ascii letters ++ [0x5B] ++ time ++ [0x5D, 0x20] ++ message ++ pad ++ [0x20] ++ fields ++ [0x0A]

/-- The text without escape sequences (`ESC [ … m`); the flag says whether one has begun. -/
def withoutColors : Bool → Bytes → Bytes
  | _, [] => []
  | true, c :: s => if c = 0x6D then withoutColors false s else withoutColors true s
  | false, c :: s => if c = 0x1B then withoutColors true s else c :: withoutColors false s

/-- Texts that can be told apart in a line: no equals sign in message, keys and values, no space in keys, none at the end of
the message. -/
def Legible (message : Bytes) (data : List (Bytes × Bytes)) : Prop :=
  0x3D ∉ message ∧ message.getLast? ≠ some 0x20 ∧ ∀ f ∈ data, 0x3D ∉ f.1 ∧ 0x20 ∉ f.1 ∧ 0x3D ∉ f.2

end Spec
