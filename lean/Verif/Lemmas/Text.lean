import Verif.Model.Text
import Verif.Spec.Text
import Verif.Lemmas.RealRegistry

namespace Ipod
open Go Spec

/-! ### numbers -/

theorem digitVal_ldigits {d : Nat} (h : d < 16) : digitVal (ldigits.getD d 0) = some d := by
  have : ∀ d : Fin 16, digitVal (ldigits.getD d.1 0) = some d.1 := by decide +kernel
  exact this ⟨d, h⟩

theorem digitVal_zero {c : UInt8} (h : digitVal c = some 0) : c = 0x30 := by
  unfold digitVal at h
  split at h
  · have : c.toNat = 0x30 := by simp at h; omega
    exact UInt8.toNat_inj.1 this
  · split at h
    · simp at h
    · cases h

theorem digitVal_inj {a b : UInt8} {d : Nat} (ha : digitVal a = some d) (hb : digitVal b = some d) : a = b := by
  apply UInt8.toNat_inj.1
  unfold digitVal at ha hb
  split at ha <;> split at hb <;> (try split at ha) <;> (try split at hb) <;> simp at ha hb <;> omega

theorem numeral_append {base : Nat} {s t : Bytes} {n m : Nat} (hs : Numeral base s n) (ht : Numeral base t m) :
    Numeral base (s ++ t) (n * base ^ t.length + m) := by
  induction ht with
  | nil => simpa using hs
  | @snoc t m c d _ hc hd ih =>
    have := Numeral.snoc ih hc hd
    rw [List.append_assoc] at this
    have e : (n * base ^ t.length + m) * base + d = n * base ^ (t ++ [c]).length + (m * base + d) := by
      simp only [List.length_append, List.length_cons, List.length_nil, Nat.pow_succ, Nat.add_mul, Nat.mul_assoc]
      omega
    rw [← e]
    exact this

theorem numeral_one {base d : Nat} {c : UInt8} (hc : digitVal c = some d) (hd : d < base) : Numeral base [c] d := by
  simpa using Numeral.snoc Numeral.nil hc hd

theorem numeral_zeros {base : Nat} (hb : 0 < base) (k : Nat) : Numeral base (List.replicate k 0x30) 0 := by
  induction k with
  | zero => exact .nil
  | succ k ih =>
    rw [List.replicate_succ']
    simpa using Numeral.snoc ih (c := 0x30) (d := 0) (by decide) hb

theorem numeral_lt {base : Nat} {s : Bytes} {n : Nat} (h : Numeral base s n) : n < base ^ s.length := by
  induction h with
  | nil => simp
  | @snoc s n c d _ _ hd ih =>
    simp only [List.length_append, List.length_cons, List.length_nil, Nat.pow_succ]
    have : (n + 1) * base ≤ base ^ s.length * base := Nat.mul_le_mul_right _ ih
    rw [Nat.add_mul] at this
    omega

theorem numeral_fun {base : Nat} {s : Bytes} {n m : Nat} (h : Numeral base s n) (h' : Numeral base s m) : n = m := by
  induction h generalizing m with
  | nil =>
    generalize e : ([] : Bytes) = x at h'
    cases h' with
    | nil => rfl
    | snoc => simp at e
  | @snoc s n c d _ hc _ ih =>
    generalize e : s ++ [c] = x at h'
    cases h' with
    | nil => simp at e
    | @snoc s' n' c' d' h1 hc' _ =>
      obtain ⟨rfl, e2⟩ := List.append_inj' e rfl
      cases e2
      rw [hc] at hc'
      cases hc'
      rw [ih h1]

theorem numeral_same {base : Nat} {s s' : Bytes} {n : Nat} (h : Numeral base s n) (h' : Numeral base s' n)
    (hl : s.length = s'.length) : s = s' := by
  induction h generalizing s' with
  | nil => exact (List.eq_nil_of_length_eq_zero hl.symm).symm
  | @snoc s n c d _ hc hd ih =>
    generalize e : n * base + d = v at h'
    cases h' with
    | nil => simp at hl
    | @snoc s' n' c' d' h1 hc' hd' =>
      have e1 : d = d' := by
        have := congrArg (· % base) e
        simp only [Nat.mul_comm _ base, Nat.mul_add_mod, Nat.mod_eq_of_lt hd, Nat.mod_eq_of_lt hd'] at this
        exact this
      subst e1
      have e2 : n = n' := Nat.eq_of_mul_eq_mul_right (show 0 < base by omega) (Nat.add_right_cancel e)
      subst e2
      rw [ih h1 (by simpa using hl), digitVal_inj hc hc']

theorem numeral_ge {base : Nat} {s : Bytes} {n : Nat} (h : Numeral base s n) (hs : s ≠ []) (hz : s.head? ≠ some 0x30) :
    base ^ (s.length - 1) ≤ n := by
  induction h with
  | nil => exact absurd rfl hs
  | @snoc s n c d _ hc hd ih =>
    cases s with
    | nil =>
      simp only [List.nil_append, List.length_cons, List.length_nil, Nat.zero_add, Nat.sub_self, Nat.pow_zero]
      have : d ≠ 0 := fun e => hz (by subst e; rw [digitVal_zero hc]; rfl)
      omega
    | cons a s =>
      have := ih (by simp) (by simpa using hz)
      simp only [List.length_append, List.length_cons, List.length_nil, Nat.add_sub_cancel, Nat.zero_add] at this ⊢
      rw [Nat.pow_succ]
      have := Nat.mul_le_mul_right base this
      omega

theorem numberText_unique {base w n : Nat} {s s' : Bytes} (hb : 2 ≤ base) (h : NumberText base w n s)
    (h' : NumberText base w n s') : s = s' := by
  have key : ∀ {a b : Bytes}, NumberText base w n a → NumberText base w n b → ¬ a.length < b.length := by
    intro a b ha hb' hlt
    have h1 := numeral_lt ha.1
    have h2 := numeral_ge hb'.1 (by intro e; subst e; simp at hlt) (hb'.2.2 (by have := ha.2.1; omega))
    have h3 : base ^ a.length ≤ base ^ (b.length - 1) := Nat.pow_le_pow_right (by omega) (by omega)
    omega
  have := key h h'
  have := key h' h
  exact numeral_same h.1 h'.1 (by omega)

theorem digitLoop_text {base : Nat} (h2 : 2 ≤ base) (h16 : base ≤ 16) : ∀ (fuel n : Nat) (buf : Bytes), n < base ^ (fuel + 1) →
    ∃ pre, digitLoop base fuel n buf = pre ++ buf ∧ Numeral base pre n ∧ pre ≠ [] ∧ (1 < pre.length → pre.head? ≠ some 0x30) := by
  have one : ∀ n : Nat, n < base → Numeral base [ldigits.getD n 0] n := fun n h =>
    numeral_one (digitVal_ldigits (by omega)) h
  intro fuel
  induction fuel with
  | zero =>
    intro n buf h
    refine ⟨[ldigits.getD n 0], ?_, one n (by simpa using h), by simp, by simp⟩
    rw [digitLoop, Nat.mod_eq_of_lt (by simpa using h)]
    rfl
  | succ fuel ih =>
    intro n buf h
    rw [digitLoop]
    split
    · rename_i hge
      have hd : n / base < base ^ (fuel + 1) := by
        rw [Nat.div_lt_iff_lt_mul (by omega)]
        rw [Nat.pow_succ] at h; exact h
      obtain ⟨pre, e, hn, hne, hz⟩ := ih (n / base) (ldigits.getD (n % base) 0 :: buf) hd
      have hm : n % base < base := Nat.mod_lt _ (by omega)
      refine ⟨pre ++ [ldigits.getD (n % base) 0], by rw [e]; simp, ?_, by simp, fun _ => ?_⟩
      · have := Numeral.snoc hn (digitVal_ldigits (show n % base < 16 by omega)) hm
        rwa [Nat.mul_comm, Nat.div_add_mod] at this
      · have hh : (pre ++ [ldigits.getD (n % base) 0]).head? = pre.head? := by
          cases pre with
          | nil => exact absurd rfl hne
          | cons _ _ => rfl
        rw [hh]
        by_cases hl : 1 < pre.length
        · exact hz hl
        · intro hz0
          cases pre with
          | nil => exact absurd rfl hne
          | cons a t =>
            have : t = [] := by simpa using hl
            subst this
            simp at hz0
            subst hz0
            have h0 := numeral_fun hn (numeral_one (base := base) (c := 0x30) (d := 0) (by decide) (by omega))
            have : 1 ≤ n / base := (Nat.le_div_iff_mul_le (by omega)).2 (by omega)
            omega
    · exact ⟨[ldigits.getD n 0], rfl, one n (by omega), by simp, by simp⟩

theorem formatInt10_text (n : Nat) (h : n < 10 ^ 65) : NumberText 10 1 n (formatInt10 n) := by
  obtain ⟨pre, e, h1, h2, h3⟩ := digitLoop_text (base := 10) (by omega) (by omega) 64 n [] h
  rw [formatInt10, e, List.append_nil]
  exact ⟨h1, by have := List.length_pos_iff.2 h2; omega, h3⟩

theorem fmtHex_text (w n : Nat) (hw : 1 ≤ w) (h : n < 16 ^ 65) : HexNumber w n (fmtHex true w n) := by
  obtain ⟨pre, e, h1, h2, h3⟩ := digitLoop_text (base := 16) (by omega) (by omega) 64 n [] h
  refine ⟨List.replicate (w - pre.length) 0x30 ++ pre, ⟨?_, ?_, ?_⟩, ?_⟩
  · simpa using numeral_append (numeral_zeros (base := 16) (by omega) (w - pre.length)) h1
  · simp; omega
  · intro hl
    have : w - pre.length = 0 := by simp at hl; omega
    rw [this] at hl ⊢
    simp at hl ⊢
    exact h3 (by omega)
  · simp only [fmtHex, e, List.append_nil, if_true]
    rfl

theorem hexText_unique {w n : Nat} {s s' : Bytes} (h : HexNumber w n s) (h' : HexNumber w n s') : s = s' := by
  obtain ⟨d, h, rfl⟩ := h
  obtain ⟨d', h', rfl⟩ := h'
  rw [numberText_unique (by omega) h h']

theorem hexText_fun {w w' n n' : Nat} {s : Bytes} (h : HexNumber w n s) (h' : HexNumber w' n' s) : n = n' := by
  obtain ⟨d, h, rfl⟩ := h
  obtain ⟨d', h', e⟩ := h'
  have := List.append_cancel_left e
  subst this
  exact numeral_fun h.1 h'.1

/-! ### names of values -/

theorem unnamed_text {tbl : List (Nat × String)} {ty : String} {n : Nat} (hn : n < 10 ^ 65) (h : ∀ x ∈ tbl, x.1 ≠ n) :
    EnumText tbl ty n (unnamed ty n) := by
  exact .unnamed h (formatInt10_text n hn)

/-- A `String` method on bytes, checked on all of them. -/
theorem enum8 (f : UInt8 → Bytes) (tbl : List (Nat × String)) (ty : String)
    (h : (List.range 256).all (fun n => (tbl.any fun x => x.1 == n && ascii x.2 == f (UInt8.ofNat n)) ||
      ((tbl.all fun x => x.1 != n) && (f (UInt8.ofNat n) == unnamed ty n))) = true) (i : UInt8) :
    EnumText tbl ty i.toNat (f i) := by
  rw [List.all_eq_true] at h
  have := h i.toNat (List.mem_range.2 i.toNat_lt)
  rw [UInt8.ofNat_toNat, Bool.or_eq_true, List.any_eq_true, Bool.and_eq_true, List.all_eq_true] at this
  rcases this with ⟨x, hx, e⟩ | ⟨h1, h2⟩
  · simp only [Bool.and_eq_true, beq_iff_eq] at e
    rw [← e.1, ← e.2]
    exact .named hx
  · rw [beq_iff_eq] at h2
    rw [h2]
    refine unnamed_text (Nat.lt_trans i.toNat_lt (by decide)) fun x hx e => ?_
    have := h1 x hx
    simp [e] at this

/-- What makes the texts of distinct values distinct: distinct names without parentheses, distinct values. -/
def goodNames (tbl : List (Nat × String)) : Bool :=
  tbl.all fun x => !(ascii x.2).contains 0x28 && tbl.all fun y => ascii x.2 != ascii y.2 || x.1 == y.1

theorem numberText_ne_nil {base n : Nat} {s : Bytes} (h : NumberText base 1 n s) : s ≠ [] := by
  intro e
  have := h.2.1
  simp [e] at this

theorem paren_mem (ty : String) (d : Bytes) : ((ascii ty ++ ascii "(" ++ d ++ ascii ")").contains 0x28) = true := by
  have : ascii "(" = [0x28] := by decide +kernel
  rw [List.contains_iff_mem, this]
  simp

theorem enumText_fun {tbl : List (Nat × String)} {ty : String} (hg : goodNames tbl = true) {n m : Nat} {s : Bytes}
    (h : EnumText tbl ty n s) (h' : EnumText tbl ty m s) : n = m := by
  simp only [goodNames, List.all_eq_true, Bool.and_eq_true, Bool.not_eq_true', Bool.or_eq_true, bne_iff_ne, beq_iff_eq] at hg
  generalize e : s = s' at h'
  cases h with
  | named hn =>
    cases h' with
    | named hm => exact ((hg _ hn).2 _ hm).resolve_left (fun k => k e)
    | unnamed _ _ =>
      exfalso
      have h1 := (hg _ hn).1
      rw [e] at h1
      rw [paren_mem] at h1
      cases h1
  | unnamed _ hd =>
    cases h' with
    | named hm =>
      exfalso
      have h1 := (hg _ hm).1
      rw [← e] at h1
      rw [paren_mem] at h1
      cases h1
    | unnamed _ hd' =>
      have := List.append_cancel_left (List.append_cancel_right e)
      subst this
      exact numeral_fun hd.1 hd'.1

theorem mapGet_none_mem {K V : Type} [DecidableEq K] {m : List (K × V)} {k : K} (h : mapGet m k = none) :
    ∀ x ∈ m, x.1 ≠ k := by
  induction m with
  | nil => simp
  | cons y m ih =>
    obtain ⟨k', v⟩ := y
    rw [mapGet] at h
    split at h
    · cases h
    · rename_i hne
      intro x hx
      rcases List.mem_cons.1 hx with rfl | hx
      · exact hne
      · exact ih h x hx

theorem mapGet_some_mem {K V : Type} [DecidableEq K] {m : List (K × V)} {k : K} {v : V} (h : mapGet m k = some v) :
    (k, v) ∈ m := by
  induction m with
  | nil => cases h
  | cons y m ih =>
    obtain ⟨k', v'⟩ := y
    rw [mapGet] at h
    split at h
    · rename_i e
      cases h
      subst e
      exact List.mem_cons_self
    · exact List.mem_cons_of_mem _ (ih h)

/-! ### masks -/

theorem joinStrings_joined (sep : Bytes) (ss : List Bytes) : Joined sep ss (joinStrings sep ss) := by
  induction ss with
  | nil => exact .none
  | cons s ss ih =>
    cases ss with
    | nil => exact .one
    | cons t ts => exact .more ih

theorem joined_nil_iff {ss : List Bytes} {s : Bytes} (h : Joined (ascii " | ") ss s) (hne : ∀ x ∈ ss, x ≠ []) :
    s = [] ↔ ss = [] := by
  cases h with
  | none => simp
  | one => simpa using hne
  | more _ =>
    simp only [List.append_eq_nil_iff, reduceCtorEq, iff_false, not_and]
    intro h
    exact absurd h.1 (hne _ (by simp))

theorem cut_unique {a b r r' : Bytes} (ha : (0x20 : UInt8) ∉ a) (hb : (0x20 : UInt8) ∉ b)
    (e : a ++ 0x20 :: r = b ++ 0x20 :: r') : a = b ∧ r = r' := by
  induction a generalizing b with
  | nil =>
    cases b with
    | nil => simpa using e
    | cons y b => simp at e; exact absurd (by simp [e.1]) hb
  | cons x a ih =>
    cases b with
    | nil => simp at e; exact absurd (by simp [e.1]) ha
    | cons y b =>
      simp only [List.cons_append, List.cons.injEq] at e
      obtain ⟨h1, h2⟩ := ih (fun h => ha (by simp [h])) (fun h => hb (by simp [h])) e.2
      exact ⟨by rw [e.1, h1], h2⟩

theorem joined_unique {ss ss' : List Bytes} {s : Bytes} (h : Joined (ascii " | ") ss s) (h' : Joined (ascii " | ") ss' s)
    (hs : ∀ x ∈ ss, x ≠ [] ∧ (0x20 : UInt8) ∉ x) (hs' : ∀ x ∈ ss', x ≠ [] ∧ (0x20 : UInt8) ∉ x) : ss = ss' := by
  have sp : ascii " | " = [0x20, 0x7C, 0x20] := by decide +kernel
  induction h generalizing ss' with
  | none =>
    have := (joined_nil_iff h' fun x hx => (hs' x hx).1).1 rfl
    exact this.symm
  | @one s =>
    generalize e : s = s' at h'
    cases h' with
    | none => exact absurd e (hs s (by simp)).1
    | one => rfl
    | @more t _ _ r _ =>
      exfalso
      refine (hs s (by simp)).2 ?_
      rw [e, sp]
      simp
  | @more a t ts r hj ih =>
    generalize e : a ++ ascii " | " ++ r = s' at h'
    cases h' with
    | none => rw [sp] at e; simp at e
    | one =>
      exfalso
      refine (hs' s' (by simp)).2 ?_
      rw [← e, sp]
      simp
    | @more b t' ts' r' hj' =>
      rw [sp] at e
      simp only [List.append_assoc, List.cons_append, List.nil_append] at e
      obtain ⟨h1, h2⟩ := cut_unique (hs a (by simp)).2 (hs' b (by simp)).2 e
      simp only [List.cons.injEq, true_and] at h2
      subst h1 h2
      rw [ih hj' (fun x hx => hs x (List.mem_cons_of_mem _ hx)) (fun x hx => hs' x (List.mem_cons_of_mem _ hx))]

theorem bit_toNat {i : Nat} (hi : i < 32) : ((1 : UInt32) <<< UInt32.ofNat i).toNat = 2 ^ i := by
  have h1 : (UInt32.ofNat i).toNat = i := UInt32.toNat_ofNat_of_lt' (by simp [UInt32.size]; omega)
  rw [UInt32.toNat_shiftLeft, h1, Nat.mod_eq_of_lt hi, Nat.shiftLeft_eq]
  simp only [UInt32.toNat_one, Nat.one_mul]
  exact Nat.mod_eq_of_lt (Nat.pow_lt_pow_right (by omega) hi)

theorem and_bit (m : UInt32) {i : Nat} (hi : i < 32) : m &&& (1 <<< UInt32.ofNat i) ≠ 0 ↔ m.toNat.testBit i = true := by
  have h1 : ((1 : UInt32) <<< UInt32.ofNat i).toNat = 2 ^ i := bit_toNat hi
  rw [Ne, ← UInt32.toNat_inj, UInt32.toNat_and, h1]
  have h2 : (UInt32.toNat 0) = 0 := rfl
  rw [h2]
  constructor
  · intro h
    refine Classical.byContradiction fun hn => h ?_
    apply Nat.eq_of_testBit_eq
    intro j
    rw [Nat.testBit_and, Nat.testBit_two_pow, Nat.zero_testBit]
    by_cases e : i = j
    · subst e
      simpa using hn
    · simp [e]
  · intro h e
    have := congrArg (Nat.testBit · i) e
    simp only [Nat.testBit_and, Nat.testBit_two_pow_self, Nat.zero_testBit, h] at this
    cases this

/-- Set bits from `i` on. -/
def setBits (m : UInt32) (i n : Nat) : List Nat := (List.range' i n).filter fun j => m.toNat.testBit j

theorem maskLabels_eq (name : UInt32 → Bytes) (m : UInt32) (n i : Nat) (h : i + n ≤ 32) :
    maskLabels name m i n = (setBits m i n).map fun j => name (1 <<< UInt32.ofNat j) := by
  induction n generalizing i with
  | zero => rfl
  | succ n ih =>
    rw [maskLabels, ih (i + 1) (by omega)]
    unfold setBits
    rw [List.range'_succ, List.filter_cons]
    by_cases hb : m.toNat.testBit i = true
    · rw [if_pos ((and_bit m (by omega)).2 hb), if_pos hb]
      rfl
    · rw [if_neg (fun h => hb ((and_bit m (by omega)).1 h)), if_neg hb]

theorem mem_setBits (m : UInt32) (i : Nat) : i ∈ setBits m 0 32 ↔ m.toNat.testBit i = true := by
  simp only [setBits, List.mem_filter, List.mem_range'_1, Nat.zero_le, true_and, Nat.zero_add, and_iff_right_iff_imp]
  intro h
  refine Classical.byContradiction fun hn => ?_
  have : m.toNat < 2 ^ i := Nat.lt_of_lt_of_le m.toNat_lt (Nat.pow_le_pow_right (by omega) (by omega))
  rw [Nat.testBit_lt_two_pow this] at h
  cases h

theorem mask_text (name : UInt32 → Bytes) (tbl : List (Nat × String)) (ty : String)
    (hn : ∀ i : UInt32, EnumText tbl ty i.toNat (name i)) (m : UInt32) :
    MaskText tbl ty m.toNat (joinStrings (ascii " | ") (maskLabels name m 0 32)) := by
  refine ⟨setBits m 0 32, maskLabels name m 0 32, ?_, mem_setBits m, ?_, ?_, joinStrings_joined _ _⟩
  · exact List.Pairwise.filter _ (List.pairwise_lt_range' (step := 1))
  · rw [maskLabels_eq _ _ _ _ (by omega), List.length_map]
  · intro k i nm h1 h2
    rw [maskLabels_eq _ _ _ _ (by omega), List.getElem?_map, h1] at h2
    simp only [Option.map_some, Option.some.injEq] at h2
    subst h2
    have hi : i < 32 := by
      have := List.mem_of_getElem? h1
      simp only [setBits, List.mem_filter, List.mem_range'_1] at this
      omega
    have := hn (1 <<< UInt32.ofNat i)
    rwa [bit_toNat hi] at this

/-- Names without blanks. -/
def plainNames (tbl : List (Nat × String)) (ty : String) : Bool :=
  !(ascii ty).contains 0x20 && tbl.all fun x => ascii x.2 != [] && !(ascii x.2).contains 0x20

theorem numeral_digits {base : Nat} {s : Bytes} {n : Nat} (h : Numeral base s n) : ∀ c ∈ s, digitVal c ≠ none := by
  induction h with
  | nil => simp
  | snoc _ hc _ ih =>
    intro c h
    rcases List.mem_append.1 h with h | h
    · exact ih c h
    · simp at h; subst h; simp [hc]

theorem enumText_plain {tbl : List (Nat × String)} {ty : String} (hp : plainNames tbl ty = true) {n : Nat} {s : Bytes}
    (h : EnumText tbl ty n s) : s ≠ [] ∧ (0x20 : UInt8) ∉ s := by
  simp only [plainNames, Bool.and_eq_true, List.all_eq_true, Bool.not_eq_true', bne_iff_ne] at hp
  cases h with
  | named hn =>
    have := hp.2 _ hn
    exact ⟨this.1, fun h => by rw [List.contains_iff_mem.2 h] at this; cases this.2⟩
  | unnamed _ hd =>
    have e1 : ascii "(" = [0x28] := by decide +kernel
    have e2 : ascii ")" = [0x29] := by decide +kernel
    rw [e1, e2]
    refine ⟨by simp, fun h => ?_⟩
    simp only [List.mem_append, List.mem_cons, List.not_mem_nil, or_false] at h
    rcases h with ((h | h) | h) | h
    · rw [List.contains_iff_mem.2 h] at hp; cases hp.1
    · cases h
    · exact numeral_digits hd.1 _ h (by decide)
    · cases h

theorem maskText_fun {tbl : List (Nat × String)} {ty : String} (hg : goodNames tbl = true) (hp : plainNames tbl ty = true)
    {m m' : Nat} {s : Bytes} (h : MaskText tbl ty m s) (h' : MaskText tbl ty m' s) : m = m' := by
  obtain ⟨bits, names, _, hb, hl, hn, hj⟩ := h
  obtain ⟨bits', names', _, hb', hl', hn', hj'⟩ := h'
  have plain : ∀ {bits : List Nat} {names : List Bytes}, names.length = bits.length →
      (∀ (k i : Nat) (name : Bytes), bits[k]? = some i → names[k]? = some name → EnumText tbl ty (2 ^ i) name) →
      ∀ x ∈ names, x ≠ [] ∧ (0x20 : UInt8) ∉ x := by
    intro bits names hl hn x hx
    obtain ⟨k, hk, e⟩ := List.getElem_of_mem hx
    exact enumText_plain hp (hn k (bits[k]'(by omega)) x (List.getElem?_eq_getElem _) (by rw [List.getElem?_eq_getElem hk, e]))
  have e := joined_unique hj hj' (plain hl hn) (plain hl' hn')
  subst e
  have e : bits = bits' := by
    apply List.ext_getElem (by omega)
    intro k h1 h2
    have a1 := hn k _ (names[k]'(by omega)) (List.getElem?_eq_getElem h1) (List.getElem?_eq_getElem _)
    have a2 := hn' k _ (names[k]'(by omega)) (List.getElem?_eq_getElem h2) (List.getElem?_eq_getElem _)
    exact (Nat.pow_right_inj (by omega)).1 (enumText_fun hg a1 a2)
  subst e
  apply Nat.eq_of_testBit_eq
  intro i
  have := (hb i).symm.trans (hb' i)
  exact Bool.eq_iff_iff.2 this

end Ipod
