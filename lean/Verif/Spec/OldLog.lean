import Verif.Spec.TraceFile

/-! Specification of the conversion of old logs. -/

namespace Spec
open Go Ipod.Trace

/-- The line has the word and after it brackets; `g` is what is between the last closing one and the last opening one before it,
`t` what follows. -/
def Bracketed (word line g t : Bytes) : Prop :=
  ∃ a b, line = a ++ word ++ b ++ 0x5B :: (g ++ 0x5D :: t) ∧ (0x5B : UInt8) ∉ g ∧ (0x5D : UInt8) ∉ t

/-- A line of an old log that tells of a frame read (`d = 0`) or written (`d = 1`), with its bytes in hex between brackets, after
`lead`; what follows does not go on with a digit. -/
def OldEntry (lead line : Bytes) (d : Dir) (data : Bytes) : Prop :=
  ∃ c body t v, (d = 0 ∧ Bracketed [0x49, 0x6E, 0x70, 0x75, 0x74] line (lead ++ c :: body) t ∨
      d = 1 ∧ (∀ g t, ¬ Bracketed [0x49, 0x6E, 0x70, 0x75, 0x74] line g t) ∧
        Bracketed [0x4F, 0x75, 0x74, 0x70, 0x75, 0x74] line (lead ++ c :: body) t) ∧
    IsHex c v ∧ HexText ((c :: body).filter (· ≠ 0x20)) data ∧
    ∀ x ∈ (t.filter (· ≠ 0x20)).head?, ∀ v, ¬ IsHex x v

/-- The lines of a log and the frames they tell of, numbered from `i`. Lines that mention neither `Input` nor `Output` do not count. -/
inductive OldLog (lead : Bytes) : Nat → List Bytes → List Msg → Prop
  | nil {i} : OldLog lead i [] []
  | other {i l ls ms} : ¬ [0x49, 0x6E, 0x70, 0x75, 0x74] <:+: l → ¬ [0x4F, 0x75, 0x74, 0x70, 0x75, 0x74] <:+: l →
      OldLog lead i ls ms → OldLog lead i (l :: ls) ms
  | entry {i l ls ms d data} : OldEntry lead l d data → OldLog lead (i + 1) ls ms →
      OldLog lead i (l :: ls) (⟨d, UInt64.ofNat i, data⟩ :: ms)

end Spec
