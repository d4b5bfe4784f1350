import Verif.Spec.Layout

namespace Ipod
open Go

theorem beVal_eq (b : Bytes) : Spec.beVal b = beDec b := by
  induction b with
  | nil => rfl
  | cons x xs ih => rw [Spec.beVal, beDec_cons, ih]

theorem FTy.size_eq (f : FTy) : f.size = Spec.fieldWidth f := by cases f <;> rfl

theorem FTy.enc_length {f : FTy} {n : Nat} (h : f.size = some n) (v : f.denote) : (f.enc v).length = n := by
  cases f <;> simp only [FTy.size, Option.some.injEq, reduceCtorEq] at h <;> subst h <;>
    simp only [FTy.enc, beEnc_length, List.length_cons, List.length_nil]
  exact v.2

theorem FTy.dec_enc {f : FTy} {n : Nat} (h : f.size = some n) (v : f.denote) : f.dec (f.enc v) = some v := by
  cases f <;> simp only [FTy.size, Option.some.injEq, reduceCtorEq] at h <;> subst h <;>
    simp only [FTy.enc, FTy.dec, beEnc_length, beDec_beEnc, if_true]
  case u16 =>
    have h1 := v.toNat_lt
    rw [Nat.mod_eq_of_lt (by omega)]; simp
  case u32 =>
    have h1 := v.toNat_lt
    rw [Nat.mod_eq_of_lt (by omega)]; simp
  case u64 =>
    have h1 := v.toNat_lt
    rw [Nat.mod_eq_of_lt (by omega)]; simp
  case i16 =>
    have h1 := v.toUInt16.toNat_lt
    rw [Nat.mod_eq_of_lt (by omega)]
    rw [UInt16.ofNat_toNat]; rfl
  case i32 =>
    have h1 := v.toUInt32.toNat_lt
    rw [Nat.mod_eq_of_lt (by omega)]
    rw [UInt32.ofNat_toNat]; rfl
  case bool => cases v <;> rfl
  case arr k =>
    obtain ⟨b, hb⟩ := v
    simp [hb]

theorem FTy.dec_isSome {f : FTy} {n : Nat} (h : f.size = some n) (b : Bytes) (hb : b.length = n) :
    ∃ v, f.dec b = some v := by
  cases f <;> simp only [FTy.size, Option.some.injEq, reduceCtorEq] at h <;> subst h
  case u8 => match b, hb with | [x], _ => exact ⟨x, rfl⟩
  case bool => match b, hb with | [x], _ => exact ⟨_, rfl⟩
  all_goals simp [FTy.dec, hb]

theorem structSize_cons {f : FTy} {fs : List FTy} {n : Nat} :
    structSize (f :: fs) = some n ↔ ∃ a b, f.size = some a ∧ structSize fs = some b ∧ n = a + b := by
  simp only [structSize]
  cases f.size <;> cases structSize fs <;> simp [eq_comm]

theorem structSize_iff (fs : List FTy) (n : Nat) : structSize fs = some n ↔ Spec.FixedSize fs n := by
  induction fs generalizing n with
  | nil =>
    constructor
    · intro h; simp [structSize] at h; subst h; exact .nil
    · intro h; cases h; rfl
  | cons f fs ih =>
    rw [structSize_cons]
    constructor
    · rintro ⟨a, b, h1, h2, rfl⟩
      exact .cons (by rw [← FTy.size_eq]; exact h1) ((ih b).1 h2)
    · intro h
      cases h with
      | cons h1 h2 => exact ⟨_, _, by rw [FTy.size_eq]; exact h1, (ih _).2 h2, rfl⟩

theorem encStruct_length {fs : List FTy} {n : Nat} (h : structSize fs = some n) (v : SVal fs) :
    (encStruct fs v).length = n := by
  induction fs generalizing n with
  | nil => simp [structSize] at h; simp [encStruct, h]
  | cons f fs ih =>
    obtain ⟨a, b, h1, h2, rfl⟩ := structSize_cons.1 h
    simp [encStruct, FTy.enc_length h1, ih h2]

theorem decStruct_encStruct {fs : List FTy} {n : Nat} (h : structSize fs = some n) (v : SVal fs)
    (rest : Bytes) : decStruct fs (encStruct fs v ++ rest) = some v := by
  induction fs generalizing n with
  | nil => simp [decStruct]
  | cons f fs ih =>
    obtain ⟨a, b, h1, h2, rfl⟩ := structSize_cons.1 h
    have hl := FTy.enc_length h1 v.1
    have t1 : (encStruct (f :: fs) v ++ rest).take a = f.enc v.1 := by
      simp only [encStruct, List.append_assoc]
      rw [← hl, List.take_left]
    have t2 : (encStruct (f :: fs) v ++ rest).drop a = encStruct fs v.2 ++ rest := by
      simp only [encStruct, List.append_assoc]
      rw [← hl, List.drop_left]
    simp only [decStruct, h1, t1, t2, FTy.dec_enc h1, ih h2, Option.bind_eq_bind, Option.bind_some]

theorem decStruct_isSome {fs : List FTy} {n : Nat} (h : structSize fs = some n) (b : Bytes)
    (hb : n ≤ b.length) : ∃ v, decStruct fs b = some v := by
  induction fs generalizing n b with
  | nil => exact ⟨(), rfl⟩
  | cons f fs ih =>
    obtain ⟨a, c, h1, h2, rfl⟩ := structSize_cons.1 h
    obtain ⟨v, hv⟩ := FTy.dec_isSome h1 (b.take a) (by simp; omega)
    obtain ⟨vs, hvs⟩ := ih h2 (b.drop a) (by simp; omega)
    exact ⟨(v, vs), by simp only [decStruct, h1, hv, hvs, Option.bind_eq_bind, Option.bind_some]⟩

/-- Reading a struct back from its bytes leaves what follows. -/
theorem binRead_encStruct {fs : List FTy} {n : Nat} (h : structSize fs = some n) (v : SVal fs)
    (rest : Bytes) : binRead fs (encStruct fs v ++ rest) = (.ok v, rest) := by
  have hl := encStruct_length h v
  have hd := decStruct_encStruct h v []
  simp only [List.append_nil] at hd
  rw [binRead, h]
  simp only [List.length_append, hl]
  rw [if_neg (by omega)]
  rw [← hl, List.take_left, List.drop_left, hd]

theorem binRead_short {fs : List FTy} {n : Nat} (h : structSize fs = some n) {r : Bytes}
    (hr : r.length < n) :
    binRead fs r = (.error (if r.length = 0 then .eof else .unexpectedEOF), []) := by
  simp [binRead, h, hr]

theorem binRead_long {fs : List FTy} {n : Nat} (h : structSize fs = some n) {r : Bytes}
    (hr : n ≤ r.length) : ∃ v, binRead fs r = (.ok v, r.drop n) ∧ decStruct fs (r.take n) = some v := by
  obtain ⟨v, hv⟩ := decStruct_isSome h (r.take n) (by simp; omega)
  refine ⟨v, ?_, hv⟩
  simp only [binRead, h]
  rw [if_neg (by omega), hv]

theorem binRead_none {fs : List FTy} (h : structSize fs = none) (r : Bytes) :
    binRead fs r = (.error Err.invalidType, r) := by simp [binRead, h]

theorem int16_emod (v : Int16) : v.toInt % 65536 = v.toUInt16.toNat := by
  rw [← Int16.toInt_toBitVec, BitVec.toInt_eq_toNat_bmod]
  have h := Int.bmod_emod (x := (v.toBitVec.toNat : Int)) (m := 2 ^ 16)
  have h2 := v.toUInt16.toNat_lt
  have h3 : v.toBitVec.toNat = v.toUInt16.toNat := rfl
  rw [h3] at h ⊢
  have e : ((2 ^ 16 : Nat) : Int) = 65536 := by decide
  rw [e] at h
  omega

theorem int32_emod (v : Int32) : v.toInt % 4294967296 = v.toUInt32.toNat := by
  rw [← Int32.toInt_toBitVec, BitVec.toInt_eq_toNat_bmod]
  have h := Int.bmod_emod (x := (v.toBitVec.toNat : Int)) (m := 2 ^ 32)
  have h2 := v.toUInt32.toNat_lt
  have h3 : v.toBitVec.toNat = v.toUInt32.toNat := rfl
  rw [h3] at h ⊢
  have e : ((2 ^ 32 : Nat) : Int) = 4294967296 := by decide
  rw [e] at h
  omega

theorem fieldBytes_enc {f : FTy} {n : Nat} (h : f.size = some n) (v : f.denote) :
    Spec.FieldBytes f v (f.enc v) := by
  cases f <;> simp only [FTy.size, Option.some.injEq, reduceCtorEq] at h <;> subst h <;>
    simp only [FTy.enc, Spec.FieldBytes, Spec.IsBE, Spec.IsBESigned, beVal_eq, beEnc_length, beDec_beEnc,
      true_and]
  case u8 => simp [beDec]
  case u16 => have h1 := v.toNat_lt; omega
  case u32 => have h1 := v.toNat_lt; omega
  case u64 => have h1 := v.toNat_lt; omega
  case i16 => have h1 := v.toUInt16.toNat_lt; have := int16_emod v; simp; omega
  case i32 => have h1 := v.toUInt32.toNat_lt; have := int32_emod v; simp; omega
  case arr k => exact ⟨v.2, trivial⟩

theorem fieldBytes_unique {f : FTy} {v : f.denote} {b c : Bytes} (h1 : Spec.FieldBytes f v b)
    (h2 : Spec.FieldBytes f v c) : b = c := by
  have key : ∀ {b c : Bytes} {w : Nat}, b.length = w → c.length = w → beDec b = beDec c → b = c := by
    intro b c w hb hc h
    rw [← beEnc_beDec b w hb, ← beEnc_beDec c w hc, h]
  cases f <;> simp only [Spec.FieldBytes, Spec.IsBE, Spec.IsBESigned, beVal_eq] at h1 h2
  case bool => rw [h1, h2]
  case arr k => rw [h1.2, h2.2]
  all_goals exact key h1.1 h2.1 (by omega)

theorem structBytes_enc {fs : List FTy} {n : Nat} (h : structSize fs = some n) (v : SVal fs) :
    Spec.StructBytes fs v (encStruct fs v) := by
  induction fs generalizing n with
  | nil => exact .nil
  | cons f fs ih =>
    obtain ⟨a, c, h1, h2, rfl⟩ := structSize_cons.1 h
    exact .cons (fieldBytes_enc h1 v.1) (ih h2 v.2)

theorem structBytes_unique {fs : List FTy} {v : SVal fs} {b c : Bytes} (h1 : Spec.StructBytes fs v b)
    (h2 : Spec.StructBytes fs v c) : b = c := by
  induction h1 generalizing c with
  | nil => cases h2; rfl
  | cons hf _ ih =>
    cases h2 with
    | cons hf2 hs2 => rw [fieldBytes_unique hf hf2, ih hs2]

end Ipod
