import Verif.Model.Trx
import Mathlib.Data.List.Nodup
import Mathlib.Data.List.Perm.Basic

/-! # Properties C20–C21: transaction numbers -/

namespace Props
open Go Ipod

/-! ## C20 -/

/-- The `k` numbers following counter value `c`, in 16 bits. -/
def Spec.numbersAfter (c k : Nat) : List Nat := (List.range k).map fun i => (c + 1 + i) % 65536

theorem numbersAfter_succ (c k : Nat) :
    Spec.numbersAfter c (k + 1) = Spec.numbersAfter c k ++ [(c + 1 + k) % 65536] := by
  simp [Spec.numbersAfter, List.range_succ]

theorem numbersAfter_nodup (c k : Nat) (h : k ≤ 65536) : (Spec.numbersAfter c k).Nodup := by
  rw [Spec.numbersAfter]
  apply List.Nodup.map_on _ List.nodup_range
  intro x hx y hy he
  simp at hx hy
  omega

theorem trxNexts_eq (c : UInt32) (k : Nat) :
    (trxNexts c k).2.map UInt16.toNat = Spec.numbersAfter c.toNat k ∧
    (trxNexts c k).1.toNat = (c.toNat + k) % 4294967296 := by
  induction k generalizing c with
  | zero =>
    have := c.toNat_lt
    simp [trxNexts, Spec.numbersAfter]
  | succ k ih =>
    obtain ⟨h1, h2⟩ := ih (c + 1)
    simp only [trxNexts, trxNext, List.map_cons]
    have hc := c.toNat_lt
    have e : (c + 1).toNat = (c.toNat + 1) % 4294967296 := by simp [UInt32.toNat_add]
    constructor
    · rw [h1]
      simp only [Spec.numbersAfter, List.range_succ_eq_map, List.map_cons, List.map_map, List.cons.injEq]
      refine ⟨by simp, ?_⟩
      apply List.map_congr_left
      intro i _
      simp only [Function.comp_apply, e]
      omega
    · rw [h2, e]; omega

/-- C20. After `TrxReset` the n-th `TrxNext` returns n mod 65536. -/
theorem C20_reset_then_count (k n : Nat) (h : n < k) :
    ((trxNexts trxReset k).2[n]?).map UInt16.toNat = some ((n + 1) % 65536) := by
  have := (trxNexts_eq trxReset k).1
  rw [← List.getElem?_map, this]
  simp [Spec.numbersAfter, trxReset, h, Nat.add_comm]

example : ((trxNexts trxReset 100000).2[70000]?).map UInt16.toNat = some (70001 % 65536) := C20_reset_then_count 100000 70000 (by omega)

/-- The numbers handed out, or about to be, in an execution. -/
def callNumbers (s : TrxCalls) : List Nat :=
  s.returned.map (fun p => p.2.toNat) ++ s.pending.map (fun p => p.2.toUInt16.toNat)

/-- C20. In every interleaving of any number of goroutines, starting anywhere, the numbers of the calls begun since are,
in some order, the numbers following the counter. -/
theorem C20_interleaving (c : UInt32) (schedule : List Nat) :
    let s := TrxCalls.run ⟨c, [], []⟩ schedule
    (callNumbers s).Perm (Spec.numbersAfter c.toNat (s.returned.length + s.pending.length)) := by
  have inv : ∀ (sched : List Nat) (s : TrxCalls),
      (callNumbers s).Perm (Spec.numbersAfter c.toNat (s.returned.length + s.pending.length)) →
      s.counter.toNat = (c.toNat + (s.returned.length + s.pending.length)) % 4294967296 →
      let s' := TrxCalls.run s sched
      (callNumbers s').Perm (Spec.numbersAfter c.toNat (s'.returned.length + s'.pending.length)) := by
    intro sched
    induction sched with
    | nil => intro s h _; exact h
    | cons g sched ih =>
      intro s hp hc
      apply ih (s.step g)
      · simp only [TrxCalls.step]
        split
        · simp only [callNumbers, List.map_append, List.map_cons, List.map_nil, List.length_append,
            List.length_cons, List.length_nil]
          rw [← Nat.add_assoc, Nat.zero_add, numbersAfter_succ, ← List.append_assoc]
          refine List.Perm.append hp ?_
          have : (s.counter + 1).toUInt16.toNat =
              (c.toNat + 1 + (s.returned.length + s.pending.length)) % 65536 := by
            simp only [UInt32.toNat_toUInt16, UInt32.toNat_add, UInt32.toNat_one, hc]
            omega
          rw [this]
        · rename_i p hf
          have hm : p ∈ s.pending := List.mem_of_find?_eq_some hf
          have hpos : 0 < s.pending.length := List.length_pos_of_mem hm
          simp only [callNumbers, List.map_append, List.map_cons, List.map_nil, List.length_append,
            List.length_cons, List.length_nil, List.length_erase_of_mem hm]
          have e : s.returned.length + (0 + 1) + (s.pending.length - 1) =
              s.returned.length + s.pending.length := by omega
          rw [e]
          refine List.Perm.trans ?_ hp
          rw [List.append_assoc]
          refine List.Perm.append_left _ ?_
          exact ((List.perm_cons_erase hm).map (fun p => p.2.toUInt16.toNat)).symm
      · simp only [TrxCalls.step]
        split
        · simp only [List.length_append, List.length_cons, List.length_nil, UInt32.toNat_add, UInt32.toNat_one, hc]
          omega
        · rename_i p hf
          have hm : p ∈ s.pending := List.mem_of_find?_eq_some hf
          have hpos : 0 < s.pending.length := List.length_pos_of_mem hm
          simp only [List.length_append, List.length_cons, List.length_nil, List.length_erase_of_mem hm, hc]
          congr 1
          omega
  have hc := c.toNat_lt
  exact inv schedule ⟨c, [], []⟩ (by simp [callNumbers, Spec.numbersAfter]) (by simp)

/-- C20. Up to 65536 calls, however interleaved, return pairwise different numbers. -/
theorem C20_distinct (c : UInt32) (schedule : List Nat) (s : TrxCalls)
    (hs : s = TrxCalls.run ⟨c, [], []⟩ schedule) (hk : s.returned.length + s.pending.length ≤ 65536) :
    (s.returned.map (·.2)).Nodup := by
  subst hs
  have h := C20_interleaving c schedule
  have h2 := h.nodup_iff.2 (numbersAfter_nodup _ _ hk)
  rw [callNumbers, List.nodup_append] at h2
  have h3 := h2.1
  rw [show (fun p : Nat × UInt16 => p.2.toNat) = UInt16.toNat ∘ (·.2) from rfl, ← List.map_map] at h3
  exact List.Nodup.of_map _ h3

example : ((TrxCalls.run ⟨0xFFFE, [], []⟩ [1, 2, 2, 1, 2]).returned.map (·.2)).Nodup :=
  C20_distinct 0xFFFE [1, 2, 2, 1, 2] _ rfl (by decide +kernel)

/-- Two goroutines, the second overtaking the first. -/
example : (TrxCalls.run ⟨0xFFFE, [], []⟩ [1, 2, 2, 1, 2]).returned = [(2, 0), (1, 0xFFFF)] := by decide +kernel
example : trxNexts trxReset 3 = (3, [1, 2, 3]) := by decide +kernel

/-! ## C21 -/

/-- A pointer of the program: nil or to an existing cell. -/
def ValidPtr (h : TrxHeap) (p : Option Nat) : Prop := ∀ a, p = some a → a < h.length

/-- Assignment through a pointer. -/
def storeTrx (h : TrxHeap) (a : Nat) (v : UInt16) : TrxHeap := h.set a v

/-- C21. The copy of nil is nil; otherwise it is a new cell with the same value, all existing cells are unchanged, and
later writes through either pointer do not show through the other. -/
theorem C21_copy (h : TrxHeap) (p : Option Nat) (hv : ValidPtr h p) :
    match p with
    | none => copyTrx h none = .ret (h, none)
    | some a => ∃ h' b, copyTrx h (some a) = .ret (h', some b) ∧ ¬ b < h.length ∧
        derefTrx h' (some b) = derefTrx h (some a) ∧ h'.take h.length = h ∧
        (∀ v, derefTrx (storeTrx h' a v) (some b) = derefTrx h (some a)) ∧
        (∀ v, derefTrx (storeTrx h' b v) (some a) = derefTrx h (some a)) := by
  match p with
  | none => rfl
  | some a =>
    have ha : a < h.length := hv a rfl
    refine ⟨h ++ [h[a]], h.length, ?_, by omega, ?_, ?_, ?_, ?_⟩
    · simp [copyTrx, derefTrx, newTransaction, ha]
    · simp [derefTrx, ha]
    · simp
    · intro v
      simp [derefTrx, storeTrx, ha]
    · intro v
      simp [derefTrx, storeTrx, ha, List.getElem?_append_left]

example : ∃ h' b, copyTrx [5, 7] (some 1) = .ret (h', some b) ∧ ¬ b < 2 ∧ derefTrx h' (some b) = derefTrx [5, 7] (some 1) :=
  have ⟨h', b, h1, h2, h3, _⟩ := C21_copy [5, 7] (some 1) (by simp [ValidPtr])
  ⟨h', b, h1, h2, h3⟩

/-- What pointer `p` shows in heap `h`. -/
def showTrx (h : TrxHeap) (p : Option Nat) : Option Nat :=
  match p with
  | none => none
  | some a => (h[a]?).map UInt16.toNat

theorem delta_value (t : UInt16) (d : Int64) :
    ((Int64.ofNat t.toNat + d).toUInt64.toUInt16.toNat : Int) = (t.toNat + d.toInt) % 65536 := by
  have h1 : (Int64.ofNat t.toNat + d).toUInt64.toUInt16.toNat = (Int64.ofNat t.toNat + d).toUInt64.toNat % 65536 := by
    simp
  rw [h1]
  have h2 : (Int64.ofNat t.toNat + d).toUInt64.toNat = (t.toNat + d.toUInt64.toNat) % 2 ^ 64 := by
    rw [show (Int64.ofNat t.toNat + d).toUInt64 = (Int64.ofNat t.toNat).toUInt64 + d.toUInt64 from rfl,
      UInt64.toNat_add]
    congr 2
    have := t.toNat_lt
    rw [show (Int64.ofNat t.toNat).toUInt64 = UInt64.ofNat t.toNat from rfl]
    simp
  rw [h2]
  have h3 : d.toInt % (2 ^ 64 : Nat) = d.toUInt64.toNat := by
    rw [← Int64.toInt_toBitVec, BitVec.toInt_eq_toNat_bmod]
    have h := Int.bmod_emod (x := (d.toBitVec.toNat : Int)) (m := 2 ^ 64)
    have h2 := d.toUInt64.toNat_lt
    have h3 : d.toBitVec.toNat = d.toUInt64.toNat := rfl
    rw [h3] at h ⊢
    rw [h]
    omega
  omega

/-- C21. `Delta` adds modulo 65536 (nil stays nil), in a new cell. -/
theorem C21_delta (h : TrxHeap) (p : Option Nat) (hv : ValidPtr h p) (d : Int64) :
    ∃ h' q, deltaTrx h p d = .ret (h', q) ∧ ValidPtr h' q ∧ h'.take h.length = h ∧
      showTrx h' q = (showTrx h p).map fun t : Nat => (((t : Int) + d.toInt) % 65536).toNat := by
  match p with
  | none => exact ⟨h, none, rfl, by simp [ValidPtr], by simp, rfl⟩
  | some a =>
    have ha : a < h.length := hv a rfl
    refine ⟨h ++ [(Int64.ofNat h[a].toNat + d).toUInt64.toUInt16], some h.length, ?_, ?_, by simp, ?_⟩
    · simp [deltaTrx, derefTrx, newTransaction, ha]
    · simp [ValidPtr]
    · have := delta_value h[a] d
      simp only [showTrx, List.getElem?_append_right (Nat.le_refl _), Nat.sub_self, List.getElem?_cons_zero,
        Option.map_some, List.getElem?_eq_getElem ha]
      rw [← this, Int.toNat_natCast]

example : ∃ h' q, deltaTrx [5] (some 0) (-6) = .ret (h', q) ∧ ValidPtr h' q ∧ h'.take 1 = [5] ∧
    showTrx h' q = (showTrx [5] (some 0)).map fun t : Nat => (((t : Int) + (-6 : Int64).toInt) % 65536).toNat :=
  C21_delta [5] (some 0) (by simp [ValidPtr]) (-6)

/-- C21. Deltas compose, and a zero delta changes nothing. `d` is any int64 congruent to the sum (in particular the
wrapped sum `a + b`). -/
theorem C21_delta_compose (h : TrxHeap) (p : Option Nat) (hv : ValidPtr h p) (a b : Int64) :
    ∃ h1 q1 h2 q2 h3 q3, deltaTrx h p a = .ret (h1, q1) ∧ deltaTrx h1 q1 b = .ret (h2, q2) ∧
      deltaTrx h p (a + b) = .ret (h3, q3) ∧ showTrx h2 q2 = showTrx h3 q3 := by
  obtain ⟨h1, q1, e1, v1, _, s1⟩ := C21_delta h p hv a
  obtain ⟨h2, q2, e2, v2, _, s2⟩ := C21_delta h1 q1 v1 b
  obtain ⟨h3, q3, e3, v3, _, s3⟩ := C21_delta h p hv (a + b)
  refine ⟨h1, q1, h2, q2, h3, q3, e1, e2, e3, ?_⟩
  rw [s2, s3, s1, Option.map_map]
  congr 1
  funext t
  simp only [Function.comp_apply]
  have hab : (a + b).toInt % 65536 = (a.toInt + b.toInt) % 65536 := by
    rw [Int64.toInt_add]
    have := Int.bmod_emod (x := a.toInt + b.toInt) (m := 2 ^ 64)
    generalize Int.bmod (a.toInt + b.toInt) (2 ^ 64) = z at this
    omega
  omega

example : ∃ h1 q1 h2 q2 h3 q3, deltaTrx [5] (some 0) 3 = .ret (h1, q1) ∧ deltaTrx h1 q1 (-9) = .ret (h2, q2) ∧
    deltaTrx [5] (some 0) (3 + -9) = .ret (h3, q3) ∧ showTrx h2 q2 = showTrx h3 q3 :=
  C21_delta_compose [5] (some 0) (by simp [ValidPtr]) 3 (-9)

theorem C21_delta_zero (h : TrxHeap) (p : Option Nat) (hv : ValidPtr h p) :
    ∃ h' q, deltaTrx h p 0 = .ret (h', q) ∧ showTrx h' q = showTrx h p := by
  obtain ⟨h', q, e, _, _, s⟩ := C21_delta h p hv 0
  refine ⟨h', q, e, ?_⟩
  rw [s]
  cases p with
  | none => rfl
  | some a =>
    have ha : a < h.length := hv a rfl
    have := h[a].toNat_lt
    simp only [showTrx, List.getElem?_eq_getElem ha, Option.map_some, Option.some.injEq]
    rw [show (0 : Int64).toInt = 0 from rfl]
    omega

example : ∃ h' q, deltaTrx [5] (some 0) 0 = .ret (h', q) ∧ showTrx h' q = showTrx [5] (some 0) :=
  C21_delta_zero [5] (some 0) (by simp [ValidPtr])

example : ValidPtr [5, 0xFFFF] (some 1) := by simp [ValidPtr]
example : deltaTrx [5, 0xFFFF] (some 1) (-3) = .ret ([5, 0xFFFF, 0xFFFC], some 2) := by decide +kernel
example : deltaTrx [5] (some 0) (-6) = .ret ([5, 0xFFFF], some 1) := by decide +kernel
example : copyTrx [5, 7] (some 1) = .ret ([5, 7, 7], some 2) := by decide +kernel

end Props
