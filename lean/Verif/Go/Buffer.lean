import Verif.Go.Basic

/-!
# `bytes.Buffer` as far as the code uses it

A buffer that is only written to, reset and looked at with `Bytes()` has read offset 0 all the time; it then is its
slice `b.buf`. `nil` is the slice of capacity 0.

Growth: if the capacity suffices the slice is extended in place (`tryGrowByReslice`); a first allocation of at most
64 bytes has capacity 64 (`smallBufferSize`); otherwise a new zeroed array is allocated, whose capacity depends on the
Go version and the allocator's size classes, hence is a parameter `grow cap needed` (of which only
`max (grow cap needed) needed` is used, i.e. at least the needed size).
-/

namespace Go

/-- How large a new array is made: from the old capacity and the size needed. -/
abbrev Growth := Nat → Nat → Nat

namespace Slice

/-- `(*bytes.Buffer).Reset`: the array is kept, with its contents. -/
def reset (s : Slice) : Slice := ⟨[], s.data ++ s.spare⟩

/-- `(*bytes.Buffer).Write` / `WriteByte`. -/
def write (grow : Growth) (s : Slice) (p : Bytes) : Slice :=
  if p.length ≤ s.spare.length then ⟨s.data ++ p, s.spare.drop p.length⟩
  else if s.cap = 0 ∧ p.length ≤ 64 then ⟨p, List.replicate (64 - p.length) 0⟩
  else ⟨s.data ++ p, List.replicate (grow s.cap (s.len + p.length) - (s.len + p.length)) 0⟩

@[simp] theorem reset_data (s : Slice) : s.reset.data = [] := rfl

@[simp] theorem write_data (g : Growth) (s : Slice) (p : Bytes) : (s.write g p).data = s.data ++ p := by
  unfold write
  split
  · rfl
  · split
    · rename_i h
      have : s.data = [] := by
        have := h.1; simp [cap] at this; exact this.1
      simp [this]
    · rfl

end Slice

end Go
