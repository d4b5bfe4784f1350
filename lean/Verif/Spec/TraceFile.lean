import Verif.Spec.Trace

/-! Specification of the reading of any trace file, well-formed or not. -/

namespace Spec
open Go Ipod.Hid Ipod.Trace

/-- The lines of a file: each ends with a newline, the last one need not. -/
inductive Lines : Bytes → List Bytes → Prop
  | none : Lines [] []
  | last {l} : l ≠ [] → (0x0A : UInt8) ∉ l → Lines l [l]
  | line {l rest ls} : (0x0A : UInt8) ∉ l → Lines rest ls → Lines (l ++ 0x0A :: rest) (l :: ls)

/-- The text of a line: without one carriage return at its end. -/
def TextOf (l t : Bytes) : Prop := l = t ++ [0x0D] ∨ l = t ∧ ∀ t', l ≠ t' ++ [0x0D]

/-- What a reader is to deliver for these lines, the next number being `i`: nothing for an empty one, else a message with its number or,
for a line that is not accepted, an error (`none`), which has no number. -/
inductive Told : Nat → List Bytes → List (Option Msg) → Prop
  | nil {i} : Told i [] []
  | empty {i l ls rs} : TextOf l [] → Told i ls rs → Told i (l :: ls) rs
  | msg {i l ls rs t d data} : TextOf l t → LooseLine t d data → Told (i + 1) ls rs →
      Told i (l :: ls) (some ⟨d, UInt64.ofNat i, data⟩ :: rs)
  | bad {i l ls rs t} : TextOf l t → t ≠ [] → (∀ d data, ¬ LooseLine t d data) → Told i ls rs → Told i (l :: ls) (none :: rs)

/-- A line that is neither empty nor accepted. -/
def BadLine (l : Bytes) : Prop := ∃ t, TextOf l t ∧ t ≠ [] ∧ ∀ d data, ¬ LooseLine t d data

/-- The lines before the first of 64 KiB or more. -/
def shortLines (ls : List Bytes) : List Bytes := ls.takeWhile fun l => decide (l.length < 65536)

/-- The error after the last message: a line was too long, or what the file ended with. -/
def finalErr (ls : List Bytes) (ending : Option Err) : Err :=
  if ∃ l ∈ ls, 65536 ≤ l.length then .tooLong else ending.getD .eof

/-- A message delivered, or the error for a bad line. -/
def toldRes : Option Msg → Except Err Msg
  | some m => .ok m
  | none => .error Err.badTrace

/-- What a reader of one direction returns for it, given room for `size` bytes; nothing for a message of the other direction. -/
def dirRes (dir : Ipod.Trace.Dir) (size : Nat) : Option Msg → Option ReadRes
  | some m => if m.dir = dir then some ⟨m.data.take size, none⟩ else none
  | none => some ⟨[], some Err.badTrace⟩

end Spec
