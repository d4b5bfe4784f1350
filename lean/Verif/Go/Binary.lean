import Verif.Go.Basic

/-! Big-endian encoding of unsigned numbers (`binary.BigEndian.PutUint16/32/64` and inverses),
for any width. -/

namespace Go

/-- The `w` big-endian bytes of `n` (mod 256^w). -/
def beEnc : Nat → Nat → Bytes
  | 0, _ => []
  | w + 1, n => UInt8.ofNat (n / 256 ^ w) :: beEnc w n

/-- The number denoted by big-endian bytes. -/
def beDec (b : Bytes) : Nat := b.foldl (fun a x => a * 256 + x.toNat) 0

@[simp] theorem beEnc_length (w n : Nat) : (beEnc w n).length = w := by
  induction w with
  | zero => rfl
  | succ w ih => simp [beEnc, ih]

theorem foldl_beDec (b : Bytes) (a : Nat) :
    b.foldl (fun a x => a * 256 + x.toNat) a = a * 256 ^ b.length + beDec b := by
  induction b generalizing a with
  | nil => simp [beDec]
  | cons x xs ih =>
    simp only [List.foldl_cons, List.length_cons, beDec]
    rw [ih, ih (0 * 256 + x.toNat)]
    rw [Nat.pow_succ]
    grind

theorem beDec_cons (x : UInt8) (xs : Bytes) : beDec (x :: xs) = x.toNat * 256 ^ xs.length + beDec xs := by
  rw [beDec, List.foldl_cons, foldl_beDec]
  simp

theorem beDec_lt (b : Bytes) : beDec b < 256 ^ b.length := by
  induction b with
  | nil => simp [beDec]
  | cons x xs ih =>
    rw [beDec_cons, List.length_cons, Nat.pow_succ]
    have := x.toNat_lt
    have h : x.toNat * 256 ^ xs.length ≤ 255 * 256 ^ xs.length := Nat.mul_le_mul_right _ (by omega)
    omega

theorem beDec_beEnc (w n : Nat) : beDec (beEnc w n) = n % 256 ^ w := by
  induction w with
  | zero => simp [beEnc, beDec, Nat.mod_one]
  | succ w ih =>
    rw [beEnc, beDec_cons, ih, beEnc_length]
    simp
    rw [Nat.pow_succ, Nat.mod_mul, Nat.mul_comm, Nat.add_comm]

theorem beEnc_beDec (b : Bytes) (w : Nat) (h : b.length = w) : beEnc w (beDec b) = b := by
  subst h
  have key : ∀ (b : Bytes) (a : Nat), beEnc b.length (a * 256 ^ b.length + beDec b) = b := by
    intro b
    induction b with
    | nil => intro a; rfl
    | cons x xs ih =>
      intro a
      have hlt := beDec_lt xs
      have hp : 0 < 256 ^ xs.length := Nat.pow_pos (by omega)
      rw [List.length_cons, beEnc, beDec_cons]
      have e : a * 256 ^ (xs.length + 1) + (x.toNat * 256 ^ xs.length + beDec xs)
          = (a * 256 + x.toNat) * 256 ^ xs.length + beDec xs := by
        rw [Nat.pow_succ]; grind
      rw [e, ih]
      congr 1
      apply UInt8.toNat_inj.1
      rw [Nat.mul_comm, Nat.mul_add_div hp, Nat.div_eq_of_lt hlt]
      have := x.toNat_lt
      simp
  simpa using key b 0

end Go
