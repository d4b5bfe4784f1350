import Verif.Lemmas.Panic
import Verif.Spec.Decode

/-! Lemmas relating the decoders to `Spec.Decodes`. -/

namespace Ipod
open Go Spec

theorem FTy.dec_iff {f : FTy} {n : Nat} (h : f.size = some n) (b : Bytes) (v : f.denote) :
    f.dec b = some v ↔ FieldReads f v b := by
  cases f <;> simp only [FTy.size, Option.some.injEq, reduceCtorEq] at h <;> subst h <;>
    simp only [FTy.dec, FieldReads, IsBE, IsBESigned, beVal_eq]
  case u8 =>
    match b with
    | [] => simp
    | [x] => simp [beDec, UInt8.toNat_inj]
    | _ :: _ :: _ => simp
  case bool =>
    match b with
    | [] => simp
    | [x] =>
      have : x.toNat = 0 ↔ x = 0 := by rw [← UInt8.toNat_inj]; simp
      simp only [Option.some.injEq, List.cons.injEq, and_true]
      constructor
      · rintro rfl; exact ⟨x, rfl, by simp [this]⟩
      · rintro ⟨y, rfl, hy⟩
        cases v <;> simp_all
    | _ :: _ :: _ => simp
  case arr k =>
    constructor
    · intro h
      split at h
      · simp only [Option.some.injEq] at h; subst h; exact ⟨‹_›, rfl⟩
      · cases h
    · rintro ⟨h1, h2⟩
      rw [dif_pos h1]
      exact congrArg some (Subtype.ext h2)
  case u16 =>
    by_cases hb : b.length = 2
    · have hlt := beDec_lt b
      rw [hb] at hlt
      simp only [hb, if_true, Option.some.injEq, true_and]
      rw [← UInt16.toNat_inj, UInt16.toNat_ofNat', Nat.mod_eq_of_lt (by omega)]
    · simp [hb]
  case u32 =>
    by_cases hb : b.length = 4
    · have hlt := beDec_lt b
      rw [hb] at hlt
      simp only [hb, if_true, Option.some.injEq, true_and]
      rw [← UInt32.toNat_inj, UInt32.toNat_ofNat', Nat.mod_eq_of_lt (by omega)]
    · simp [hb]
  case u64 =>
    by_cases hb : b.length = 8
    · have hlt := beDec_lt b
      rw [hb] at hlt
      simp only [hb, if_true, Option.some.injEq, true_and]
      rw [← UInt64.toNat_inj, UInt64.toNat_ofNat', Nat.mod_eq_of_lt (by omega)]
    · simp [hb]
  case i16 =>
    by_cases hb : b.length = 2
    · have hlt := beDec_lt b
      rw [hb] at hlt
      simp only [hb, if_true, Option.some.injEq, true_and]
      have e := int16_emod v
      have : (UInt16.ofNat (beDec b)).toInt16 = v ↔ UInt16.ofNat (beDec b) = v.toUInt16 :=
        ⟨fun h => by rw [← h]; rfl, fun h => by rw [h]; rfl⟩
      rw [this, ← UInt16.toNat_inj, UInt16.toNat_ofNat', Nat.mod_eq_of_lt (by omega)]
      have e2 : ((256 ^ 2 : Nat) : Int) = 65536 := by decide
      rw [e2, e]
      omega
    · simp [hb]
  case i32 =>
    by_cases hb : b.length = 4
    · have hlt := beDec_lt b
      rw [hb] at hlt
      simp only [hb, if_true, Option.some.injEq, true_and]
      have e := int32_emod v
      have : (UInt32.ofNat (beDec b)).toInt32 = v ↔ UInt32.ofNat (beDec b) = v.toUInt32 :=
        ⟨fun h => by rw [← h]; rfl, fun h => by rw [h]; rfl⟩
      rw [this, ← UInt32.toNat_inj, UInt32.toNat_ofNat', Nat.mod_eq_of_lt (by omega)]
      have e2 : ((256 ^ 4 : Nat) : Int) = 4294967296 := by decide
      rw [e2, e]
      omega
    · simp [hb]

theorem fieldReads_size {f : FTy} {v : f.denote} {b : Bytes} (h : FieldReads f v b) : f.size = some b.length := by
  cases f <;> simp only [FieldReads, IsBE, IsBESigned] at h <;> try (exact h.elim)
  case bool => obtain ⟨x, rfl, _⟩ := h; rfl
  all_goals simp [FTy.size, h.1]

theorem structReads_size {fs : List FTy} {v : SVal fs} {b : Bytes} (h : StructReads fs v b) :
    structSize fs = some b.length := by
  induction h with
  | nil => rfl
  | cons h1 _ ih => exact structSize_cons.2 ⟨_, _, fieldReads_size h1, ih, by simp⟩

theorem decStruct_iff {fs : List FTy} {n : Nat} (h : structSize fs = some n) (b : Bytes) (hb : b.length = n)
    (v : SVal fs) : decStruct fs b = some v ↔ StructReads fs v b := by
  induction fs generalizing n b with
  | nil =>
    simp only [structSize, Option.some.injEq] at h
    subst h
    have := List.eq_nil_of_length_eq_zero hb
    subst this
    exact ⟨fun _ => .nil, fun _ => rfl⟩
  | cons f fs ih =>
    obtain ⟨a, c, h1, h2, rfl⟩ := structSize_cons.1 h
    simp only [decStruct, h1, Option.bind_eq_bind, Option.bind_some]
    constructor
    · intro hd
      cases hx : f.dec (b.take a) with
      | none => simp [hx] at hd
      | some x =>
        cases hy : decStruct fs (b.drop a) with
        | none => simp [hx, hy] at hd
        | some y =>
          simp only [hx, hy, Option.bind_some, Option.some.injEq] at hd
          subst hd
          rw [← List.take_append_drop a b]
          exact .cons ((FTy.dec_iff h1 _ _).1 hx) ((ih h2 _ (by simp; omega) _).1 hy)
    · intro hs
      cases hs with
      | @cons _ _ x y b1 b2 hf hr =>
        have hl := fieldReads_size hf
        rw [h1] at hl
        simp only [Option.some.injEq] at hl
        subst hl
        rw [List.take_left, List.drop_left, (FTy.dec_iff h1 _ _).2 hf]
        rw [(ih h2 b2 (by simpa using hb) y).2 hr]
        rfl

/-- `binary.Read` succeeds exactly on bytes that begin with the fields. -/
theorem binRead_iff (fs : List FTy) (r : Bytes) (v : SVal fs) (rest : Bytes) :
    binRead fs r = (.ok v, rest) ↔ ∃ b, r = b ++ rest ∧ StructReads fs v b := by
  constructor
  · intro h
    cases hs : structSize fs with
    | none => rw [binRead_none hs] at h; simp at h
    | some n =>
      by_cases hn : n ≤ r.length
      · obtain ⟨w, h1, h2⟩ := binRead_long hs hn
        rw [h1] at h
        simp only [Prod.mk.injEq, Except.ok.injEq] at h
        obtain ⟨rfl, rfl⟩ := h
        exact ⟨r.take n, (List.take_append_drop _ _).symm, (decStruct_iff hs _ (by simp; omega) _).1 h2⟩
      · rw [binRead_short hs (by omega)] at h; simp at h
  · rintro ⟨b, rfl, hb⟩
    have hs := structReads_size hb
    obtain ⟨w, h1, h2⟩ := binRead_long hs (r := b ++ rest) (by simp)
    rw [h1, List.drop_left]
    rw [List.take_left, (decStruct_iff hs _ rfl v).2 hb] at h2
    simp only [Option.some.injEq] at h2
    rw [h2]

theorem binRead_fst_iff (fs : List FTy) (r : Bytes) (v : SVal fs) :
    (binRead fs r).1 = .ok v ↔ Begins fs v r := by
  constructor
  · intro h
    obtain ⟨b, h1, h2⟩ := (binRead_iff fs r v (binRead fs r).2).1 (by rw [← h])
    exact ⟨b, _, h1, h2⟩
  · rintro ⟨b, rest, h1, h2⟩
    rw [(binRead_iff fs r v rest).2 ⟨b, h1, h2⟩]

theorem readAs_iff {α : Type} (fs : List FTy) (r : Bytes) (f : SVal fs → α) (x : α) :
    readAs fs r f = .ok x ↔ ∃ v, f v = x ∧ Begins fs v r := by
  rw [readAs]
  cases h : (binRead fs r).1 with
  | ok v =>
    simp only [Except.ok.injEq]
    constructor
    · rintro rfl; exact ⟨v, rfl, (binRead_fst_iff _ _ _).1 h⟩
    · rintro ⟨w, rfl, hw⟩
      rw [(binRead_fst_iff _ _ _).2 hw] at h
      cases h; rfl
  | error e =>
    simp only [reduceCtorEq, false_iff, not_exists, not_and]
    intro v _ hv
    rw [(binRead_fst_iff _ _ _).2 hv] at h
    cases h

theorem tokenRead_iff (fs : List FTy) (r : Bytes) (f : SVal fs → FIDToken) (x : FIDToken) :
    tokenRead fs r f = .ret (.ok x) ↔ ∃ v, f v = x ∧ Begins fs v r := by
  rw [← readAs_iff, readAs, tokenRead]
  cases (binRead fs r).1 <;> simp

/-- Reading a number whose read error is ignored. -/
theorem readOrZero_iff {f : FTy} {w : Nat} (hw : f.size = some w) (z : f.denote) (r : Bytes) (v : f.denote) (r' : Bytes) :
    readOrZero f z r = (v, r') ↔
      (∃ b, r = b ++ r' ∧ FieldReads f v b) ∨ (r.length < w ∧ v = z ∧ r' = []) := by
  have hs : structSize [f] = some w := by simp [structSize, hw]
  rw [readOrZero]
  by_cases h : w ≤ r.length
  · obtain ⟨x, h1, h2⟩ := binRead_long hs h
    obtain ⟨x, u⟩ := x
    rw [h1]
    simp only [Prod.mk.injEq]
    have := binRead_iff [f] r (x, u) (r.drop w)
    have h3 := this.1 h1
    constructor
    · rintro ⟨rfl, rfl⟩
      obtain ⟨b, hb1, hb2⟩ := h3
      left
      cases hb2 with
      | cons hf hr => cases hr; exact ⟨_, by simpa using hb1, hf⟩
    · rintro (⟨b, rfl, hb⟩ | ⟨hl, _⟩)
      · have := (binRead_iff [f] (b ++ r') (v, ()) r').2 ⟨b ++ [], by simp, .cons hb .nil⟩
        rw [this] at h1
        simp only [Prod.mk.injEq, Except.ok.injEq] at h1
        exact ⟨h1.1.1.symm, h1.2.symm⟩
      · omega
  · rw [binRead_short hs (by omega)]
    simp only [Prod.mk.injEq]
    constructor
    · rintro ⟨rfl, rfl⟩; exact .inr ⟨by omega, rfl, rfl⟩
    · rintro (⟨b, rfl, hb⟩ | ⟨_, rfl, rfl⟩)
      · have := fieldReads_size hb
        rw [hw] at this
        simp only [Option.some.injEq] at this
        simp at h; omega
      · exact ⟨rfl, rfl⟩

theorem readOrZero_u32 (r : Bytes) (v : UInt32) (r' : Bytes) :
    readOrZero .u32 0 r = (v, r') ↔ NumOrZero 4 r v.toNat r' := by
  rw [readOrZero_iff (f := .u32) rfl]
  simp only [FieldReads, NumOrZero]
  have : v = 0 ↔ v.toNat = 0 := by rw [← UInt32.toNat_inj]; simp
  rw [this]

theorem readOrZero_u64 (r : Bytes) (v : UInt64) (r' : Bytes) :
    readOrZero .u64 0 r = (v, r') ↔ NumOrZero 8 r v.toNat r' := by
  rw [readOrZero_iff (f := .u64) rfl]
  simp only [FieldReads, NumOrZero]
  have : v = 0 ↔ v.toNat = 0 := by rw [← UInt64.toNat_inj]; simp
  rw [this]

theorem isBE1 (v : UInt8) (b : Bytes) : IsBE 1 v.toNat b ↔ b = [v] := by
  match b with
  | [] => simp [IsBE]
  | [x] => simp [IsBE, beVal, UInt8.toNat_inj]
  | _ :: _ :: _ => simp [IsBE]

theorem readOrZero_u8 (r : Bytes) (v : UInt8) (r' : Bytes) :
    readOrZero .u8 0 r = (v, r') ↔ TypeByte r v r' := by
  rw [readOrZero_iff (f := .u8) rfl]
  simp only [FieldReads, TypeByte, isBE1]
  constructor
  · rintro (⟨b, rfl, rfl⟩ | ⟨h, rfl, rfl⟩)
    · exact .inl rfl
    · exact .inr ⟨List.eq_nil_of_length_eq_zero (by omega), rfl, rfl⟩
  · rintro (rfl | ⟨rfl, rfl, rfl⟩)
    · exact .inl ⟨[v], rfl, rfl⟩
    · exact .inr ⟨by decide, rfl, rfl⟩

theorem structReads_cons {f : FTy} {fs : List FTy} {v : f.denote} {vs : SVal fs} {b : Bytes} :
    StructReads (f :: fs) (v, vs) b ↔ ∃ b1 b2, b = b1 ++ b2 ∧ FieldReads f v b1 ∧ StructReads fs vs b2 := by
  constructor
  · intro h; cases h with | cons h1 h2 => exact ⟨_, _, rfl, h1, h2⟩
  · rintro ⟨_, _, rfl, h1, h2⟩; exact .cons h1 h2

theorem structReads_nil {b : Bytes} : StructReads [] () b ↔ b = [] :=
  ⟨fun h => by cases h; rfl, fun h => by subst h; exact .nil⟩

theorem begins_u8 {fs : List FTy} {x : UInt8} {vs : SVal fs} {b : Bytes} :
    Begins (.u8 :: fs) (x, vs) b ↔ ∃ r, b = x :: r ∧ Begins fs vs r := by
  constructor
  · rintro ⟨b, rest, rfl, h⟩
    obtain ⟨b1, b2, rfl, h1, h2⟩ := structReads_cons.1 h
    have := (isBE1 x b1).1 h1
    subst this
    exact ⟨b2 ++ rest, by simp, b2, rest, rfl, h2⟩
  · rintro ⟨r, rfl, b, rest, rfl, h⟩
    exact ⟨[x] ++ b, rest, by simp, .cons ((isBE1 x [x]).2 rfl) h⟩

theorem begins_nil {b : Bytes} : Begins [] () b := ⟨[], b, rfl, .nil⟩

theorem begins_one {f : FTy} {v : f.denote} {r : Bytes} :
    Begins [f] (v, ()) r ↔ ∃ b rest, r = b ++ rest ∧ FieldReads f v b := by
  constructor
  · rintro ⟨b, rest, rfl, h⟩
    obtain ⟨b1, b2, rfl, h1, h2⟩ := structReads_cons.1 h
    rw [structReads_nil] at h2
    subst h2
    exact ⟨b1, rest, by simp, h1⟩
  · rintro ⟨b, rest, rfl, h⟩
    exact ⟨b ++ [], rest, by simp, .cons h .nil⟩

theorem untilNul_iff (r x : Bytes) : untilNul r = x ↔ UpToZero r x := by
  have key : UpToZero r (untilNul r) := by
    induction r with
    | nil => exact .inr ⟨by simp, rfl⟩
    | cons a r ih =>
      rw [untilNul]
      by_cases ha : a = 0
      · subst ha
        exact .inl ⟨[], r, rfl, by simp, by simp⟩
      · rw [if_neg ha]
        rcases ih with ⟨s, rest, h1, h2, h3⟩ | ⟨h1, h2⟩
        · refine .inl ⟨a :: s, rest, by rw [h1]; rfl, ?_, by rw [h3]; rfl⟩
          simp only [List.mem_cons, not_or]; exact ⟨fun h => ha h.symm, h2⟩
        · refine .inr ⟨?_, by rw [h2]⟩
          simp only [List.mem_cons, not_or]; exact ⟨fun h => ha h.symm, h1⟩
  constructor
  · rintro rfl; exact key
  · intro h
    -- the first zero is unique
    have uniq : ∀ (s s' : Bytes) (t t' : Bytes), s ++ 0 :: t = s' ++ 0 :: t' → (0 : UInt8) ∉ s → (0 : UInt8) ∉ s' → s = s' := by
      intro s
      induction s with
      | nil =>
        intro s' t t' h _ h2
        cases s' with
        | nil => rfl
        | cons a s' => simp only [List.nil_append, List.cons_append, List.cons.injEq] at h; simp [← h.1] at h2
      | cons a s ih =>
        intro s' t t' h h1 h2
        cases s' with
        | nil => simp only [List.nil_append, List.cons_append, List.cons.injEq] at h; simp [h.1] at h1
        | cons b s' =>
          simp only [List.cons_append, List.cons.injEq] at h
          simp only [List.mem_cons, not_or] at h1 h2
          rw [h.1, ih s' t t' h.2 h1.2 h2.2]
    rcases key with ⟨s, t, h1, h2, h3⟩ | ⟨h1, h2⟩ <;> rcases h with ⟨s', t', g1, g2, g3⟩ | ⟨g1, g2⟩
    · rw [h3, g3, uniq s s' t t' (h1.symm.trans g1) h2 g2]
    · exact absurd (by rw [h1]; simp) g1
    · exact absurd (by rw [g1]; simp) h1
    · rw [h2, g2]

theorem readPadded_iff (n : Nat) (r x : Bytes) : readPadded n r = x ↔ Padded n r x := by
  rw [readPadded]
  constructor
  · rintro rfl
    refine ⟨by simp; omega, ?_⟩
    by_cases h : n ≤ r.length
    · left; refine ⟨r.drop n, ?_⟩
      rw [show n - r.length = 0 by omega]; simp
    · right; refine ⟨n - r.length, ?_⟩
      rw [List.take_of_length_le (by omega)]
  · rintro ⟨h1, ⟨rest, rfl⟩ | ⟨z, rfl⟩⟩
    · rw [← h1, List.take_left]
      simp
    · simp only [List.length_append, List.length_replicate] at h1
      rw [List.take_of_length_le (by omega)]
      congr 2; omega

theorem bytesOrZero_iff (n : Nat) (r l r' : Bytes) :
    (if r.length < n then (List.replicate n 0, []) else (r.take n, r.drop n)) = (l, r') ↔ BytesOrZero n r l r' := by
  unfold BytesOrZero
  by_cases h : r.length < n
  · rw [if_pos h]
    simp only [Prod.mk.injEq]
    constructor
    · rintro ⟨rfl, rfl⟩; exact .inr ⟨h, rfl, rfl⟩
    · rintro (⟨rfl, h2⟩ | ⟨_, rfl, rfl⟩)
      · simp at h; omega
      · exact ⟨rfl, rfl⟩
  · rw [if_neg h]
    simp only [Prod.mk.injEq]
    constructor
    · rintro ⟨rfl, rfl⟩; exact .inl ⟨by simp, by simp; omega⟩
    · rintro (⟨rfl, rfl⟩ | ⟨h2, _⟩)
      · simp
      · exact absurd h2 h

theorem unmarshalIdentify_iff (data : Bytes) (t : FIDToken) :
    unmarshalIdentify data = .ok t ↔ ∃ l o d, t = .identify l o d ∧ ∃ n r r1 r2 r3, data = n :: r ∧
      BytesOrZero n.toNat r l r1 ∧ NumOrZero 4 r1 o.toNat r2 ∧ NumOrZero 4 r2 d.toNat r3 := by
  cases data with
  | nil => simp [unmarshalIdentify]
  | cons n r =>
    simp only [unmarshalIdentify, Except.ok.injEq]
    constructor
    · rintro rfl
      exact ⟨_, _, _, rfl, n, r, _, _, _, rfl, (bytesOrZero_iff _ _ _ _).1 rfl, (readOrZero_u32 _ _ _).1 rfl,
        (readOrZero_u32 _ _ _).1 rfl⟩
    · rintro ⟨l, o, d, rfl, n', r', r1, r2, r3, h, h1, h2, h3⟩
      cases h
      rw [(bytesOrZero_iff _ _ _ _).2 h1]
      simp only [(readOrZero_u32 _ _ _).2 h2, (readOrZero_u32 _ _ _).2 h3]

theorem unmarshalAccInfo_iff (data : Bytes) (t : FIDToken) :
    unmarshalAccInfo data = .ok t ↔ ∃ k y, t = .accInfo k (some y) ∧ ∃ r, data = k :: r ∧ AccInfoReads k r y := by
  cases data with
  | nil =>
    have : unmarshalAccInfo [] = .error Err.unknownInfo := by decide +kernel
    simp [this]
  | cons k r =>
    simp only [unmarshalAccInfo, readOrZero_u8_cons]
    have rhs : (∃ k' y, t = .accInfo k' (some y) ∧ ∃ r', k :: r = k' :: r' ∧ AccInfoReads k' r' y) ↔
        ∃ y, t = .accInfo k (some y) ∧ AccInfoReads k r y := by
      constructor
      · rintro ⟨k', y, rfl, r', h, h2⟩; cases h; exact ⟨y, rfl, h2⟩
      · rintro ⟨y, rfl, h⟩; exact ⟨k, y, rfl, r, rfl, h⟩
    rw [rhs]
    have one : ∀ x : Bytes, (∀ y, AccInfoReads k r y ↔ x = y) →
        ((Except.ok (FIDToken.accInfo k (some x)) : Except Err FIDToken) = .ok t ↔
          ∃ y, t = .accInfo k (some y) ∧ AccInfoReads k r y) := by
      intro x hx
      simp only [Except.ok.injEq, hx]
      constructor
      · rintro rfl; exact ⟨x, rfl, rfl⟩
      · rintro ⟨y, rfl, rfl⟩; rfl
    split
    · rename_i h
      apply one
      intro y
      rw [untilNul_iff, AccInfoReads]
      rcases h with rfl | rfl | rfl | rfl <;> simp
    split
    · rename_i h
      apply one
      intro y
      rw [readPadded_iff, AccInfoReads]
      rcases h with rfl | rfl <;> simp
    split
    · rename_i h
      apply one
      intro y
      rw [readPadded_iff, AccInfoReads]
      subst h; simp
    split
    · rename_i h
      apply one
      intro y
      rw [readPadded_iff, AccInfoReads]
      rcases h with rfl | rfl <;> simp
    · rename_i h1 h2 h3 h4
      simp only [reduceCtorEq, false_iff, not_exists, not_and, AccInfoReads, not_or]
      intro y _
      simp only [not_or] at h1 h2 h4
      simp [h1, h2, h3, h4]

theorem unmarshalToken_iff (id : TokenID) (body : Bytes) (t : FIDToken) :
    unmarshalToken id body = .ret (.ok t) ↔ TokenReads id body t := by
  obtain ⟨ty, sub⟩ := id
  by_cases h0 : ty = 0x00
  · subst h0
    by_cases hk : sub ∈ [(0x00 : UInt8), 0x01, 0x02, 0x03, 0x04, 0x05, 0x07, 0x08]
    · have hkn : knownTokenID ⟨0x00, sub⟩ := .inr ⟨rfl, hk⟩
      simp only [List.mem_cons, List.not_mem_nil, or_false] at hk
      rcases hk with rfl | rfl | rfl | rfl | rfl | rfl | rfl | rfl
      · have e : unmarshalToken ⟨0x00, 0x00⟩ body = .ret (unmarshalIdentify body) := rfl
        rw [e, Out.ret.injEq, unmarshalIdentify_iff]
        constructor
        · rintro ⟨l, o, d, rfl, h⟩; exact ⟨rfl, h⟩
        · intro h
          cases t <;> first | exact ⟨_, _, _, rfl, h.2⟩ | simp [TokenReads, hkn] at h
      · have e : unmarshalToken ⟨0x00, 0x01⟩ body = .ret (.ok (.accCaps (readOrZero .u64 0 body).1)) := rfl
        rw [e]
        cases t <;> simp [TokenReads, hkn]
        constructor
        · rintro rfl; exact ⟨_, (readOrZero_u64 _ _ _).1 rfl⟩
        · rintro ⟨r, h⟩; rw [(readOrZero_u64 _ _ _).2 h]
      · have e : unmarshalToken ⟨0x00, 0x02⟩ body = .ret (unmarshalAccInfo body) := rfl
        rw [e, Out.ret.injEq, unmarshalAccInfo_iff]
        cases t <;> simp [TokenReads, hkn]
        constructor
        · rintro ⟨k, y, ⟨rfl, rfl⟩, r, h1, h2⟩; exact ⟨r, h1, y, rfl, h2⟩
        · rintro ⟨r, h1, y, rfl, h2⟩; exact ⟨_, y, ⟨rfl, rfl⟩, r, h1, h2⟩
      · have e : unmarshalToken ⟨0x00, 0x03⟩ body =
            tokenRead [.u8, .u8, .u8] body fun (a, b, c, _) => .ipodPref a b c := rfl
        rw [e, tokenRead_iff]
        constructor
        · rintro ⟨⟨a, b, c, u⟩, rfl, h⟩
          obtain ⟨_, h1, h⟩ := begins_u8.1 h
          obtain ⟨_, h2, h⟩ := begins_u8.1 h
          obtain ⟨r, h3, h⟩ := begins_u8.1 h
          exact ⟨rfl, r, by rw [h1, h2, h3]⟩
        · intro h
          cases t <;> simp [TokenReads, hkn] at h
          obtain ⟨r, rfl⟩ := h
          exact ⟨(_, _, _, ()), rfl,
            begins_u8.2 ⟨_, rfl, begins_u8.2 ⟨_, rfl, begins_u8.2 ⟨_, rfl, begins_nil⟩⟩⟩⟩
      · have e : unmarshalToken ⟨0x00, 0x04⟩ body =
            (index body 0 >>= fun i => dropOrPanic body 1 >>= fun s => .ret (.ok (.eaProtocol i s))) := rfl
        rw [e]
        cases body with
        | nil => cases t <;> simp [TokenReads, hkn, index]
        | cons x r =>
          cases t <;> simp [TokenReads, hkn, index, dropOrPanic]
      · have e : unmarshalToken ⟨0x00, 0x05⟩ body = tokenRead [.arr 11] body fun (s, _) => .bundleSeed s := rfl
        rw [e, tokenRead_iff]
        constructor
        · rintro ⟨⟨a, u⟩, rfl, h⟩
          obtain ⟨b, rest, h, _, h2⟩ := begins_one.1 h
          exact ⟨rfl, rest, by rw [h, h2]⟩
        · intro h
          cases t <;> simp [TokenReads, hkn] at h
          rename_i s
          obtain ⟨r, rfl⟩ := h
          exact ⟨(s, ()), rfl, begins_one.2 ⟨s.1, r, rfl, s.2, rfl⟩⟩
      · have e : unmarshalToken ⟨0x00, 0x07⟩ body =
            tokenRead screenInfoSchema body fun (a, b, c, d, e, f, g, h, _) => .screenInfo a b c d e f g h := rfl
        rw [e, tokenRead_iff]
        constructor
        · rintro ⟨⟨a, b, c, d, e, f, g, h, u⟩, rfl, hb⟩; exact ⟨rfl, hb⟩
        · intro h
          cases t <;> first | exact ⟨(_, _, _, _, _, _, _, _, ()), rfl, h.2⟩ | simp [TokenReads, hkn] at h
      · have e : unmarshalToken ⟨0x00, 0x08⟩ body = tokenRead [.u8, .u8] body fun (a, b, _) => .eaMetadata a b := rfl
        rw [e, tokenRead_iff]
        constructor
        · rintro ⟨⟨a, b, u⟩, rfl, h⟩
          obtain ⟨_, h1, h⟩ := begins_u8.1 h
          obtain ⟨r, h2, h⟩ := begins_u8.1 h
          exact ⟨rfl, r, by rw [h1, h2]⟩
        · intro h
          cases t <;> simp [TokenReads, hkn] at h
          obtain ⟨r, rfl⟩ := h
          exact ⟨(_, _, ()), rfl, begins_u8.2 ⟨_, rfl, begins_u8.2 ⟨_, rfl, begins_nil⟩⟩⟩
    · have hkn : ¬ knownTokenID ⟨0x00, sub⟩ := by
        rintro (h | ⟨_, h⟩)
        · exact absurd (show (0 : UInt8) = 1 from h) (by decide)
        · exact hk h
      rw [unmarshalToken_raw _ hkn]
      simp only [List.mem_cons, List.not_mem_nil, or_false, not_or] at hk
      cases t <;> simp [TokenReads, hkn, hk]
      exact eq_comm
  · by_cases h1 : ty = 0x01
    · subst h1
      have hkn : knownTokenID ⟨0x01, sub⟩ := .inl rfl
      have e : unmarshalToken ⟨0x01, sub⟩ body = tokenRead [.u32] body fun (m, _) => .micCaps m := rfl
      rw [e, tokenRead_iff]
      constructor
      · rintro ⟨⟨m, u⟩, rfl, h⟩
        exact ⟨rfl, begins_one.1 h⟩
      · intro h
        cases t <;> first | exact ⟨(_, ()), rfl, begins_one.2 h.2⟩ | simp [TokenReads, hkn] at h
    · have hkn : ¬ knownTokenID ⟨ty, sub⟩ := by
        rintro (h | ⟨h, _⟩)
        · exact h1 h
        · exact h0 h
      rw [unmarshalToken_raw _ hkn]
      cases t <;> simp [TokenReads, hkn, h0, h1]
      exact eq_comm

theorem binRead_2u8_iff (d : Bytes) :
    (∃ a b r, d = a :: b :: r ∧ binRead [.u8, .u8] d = (.ok (a, b, ()), r)) ∨
    (d.length < 2 ∧ ∃ e r, binRead [.u8, .u8] d = (.error e, r)) := by
  match d with
  | [] => exact .inr ⟨by decide, _, _, binRead_short (n := 2) rfl (by decide)⟩
  | [x] => exact .inr ⟨by simp, _, _, binRead_short (n := 2) rfl (by simp)⟩
  | a :: b :: r => exact .inl ⟨a, b, r, rfl, binRead_2u8 a b r⟩

theorem unmarshalTokenValue_iff (d : Bytes) (v : FIDTokenValue) :
    unmarshalTokenValue d = .ret (.ok v) ↔ TokenValueReads d v := by
  rw [unmarshalTokenValue, TokenValueReads]
  rcases binRead_2u8_iff d with ⟨a, b, r, rfl, h⟩ | ⟨hl, e, r, h⟩
  · rw [h]
    simp only
    constructor
    · intro h2
      cases ht : unmarshalToken ⟨a, b⟩ r with
      | panic => rw [ht] at h2; simp at h2
      | ret x =>
        rw [ht] at h2
        cases x with
        | error e => simp at h2
        | ok t =>
          simp only [Out.bind_ret, Out.ret.injEq, Except.ok.injEq] at h2
          subst h2
          exact ⟨r, rfl, (unmarshalToken_iff _ _ _).1 ht⟩
    · rintro ⟨body, h1, h2⟩
      obtain ⟨⟨x, y⟩, t⟩ := v
      simp only [List.cons.injEq] at h1
      obtain ⟨rfl, rfl, rfl⟩ := h1
      rw [(unmarshalToken_iff _ _ _).2 h2]
      rfl
  · rw [h]
    simp only [Out.ret.injEq, reduceCtorEq, false_iff, not_exists, not_and]
    rintro body rfl
    simp at hl
    omega

theorem unmarshalAck_iff (d : Bytes) (v : FIDTokenValueACK) :
    unmarshalAck d = .ret (.ok v) ↔ AckReads d v := by
  rw [unmarshalAck, AckReads]
  obtain ⟨⟨x, y⟩, t⟩ := v
  rcases binRead_2u8_iff d with ⟨a, b, r, rfl, h⟩ | ⟨hl, e, r, h⟩
  · rw [h]
    simp only [Out.ret.injEq, Except.ok.injEq, FIDTokenValueACK.mk.injEq, TokenID.mk.injEq, List.cons.injEq]
    grind
  · rw [h]
    simp only [Out.ret.injEq, reduceCtorEq, false_iff, not_exists, not_and]
    rintro body rfl
    simp at hl
    omega

theorem unmarshalList_iff {α : Type} (dec : Bytes → Out (Except Err α)) (R : Bytes → α → Prop)
    (h : ∀ d v, dec d = .ret (.ok v) ↔ R d v) (n : Nat) (r : Bytes) (vs : List α) :
    unmarshalList dec n r = .ret (.ok vs) ↔ ListReads R n r vs := by
  induction n generalizing r vs with
  | zero =>
    simp only [unmarshalList, Out.ret.injEq, Except.ok.injEq]
    exact ⟨fun h => by subst h; exact .nil, fun h => by cases h; rfl⟩
  | succ n ih =>
    cases r with
    | nil =>
      simp only [unmarshalList, Out.ret.injEq, reduceCtorEq, false_iff]
      intro h; cases h
    | cons len r =>
      simp only [unmarshalList]
      constructor
      · intro h1
        cases hd : dec (r.take len.toNat) with
        | panic => rw [hd] at h1; simp at h1
        | ret x =>
          rw [hd] at h1
          cases x with
          | error e => simp at h1
          | ok v =>
            cases hl : unmarshalList dec n (r.drop len.toNat) with
            | panic => rw [hl] at h1; simp at h1
            | ret y =>
              rw [hl] at h1
              cases y with
              | error e => simp at h1
              | ok ws =>
                simp only [Out.bind_ret, Out.ret.injEq, Except.ok.injEq] at h1
                subst h1
                exact .cons ((h _ _).1 hd) ((ih _ _).1 hl)
      · intro h1
        cases h1 with
        | cons h2 h3 => rw [(h _ _).2 h2]; simp only [Out.bind_ret]; rw [(ih _ _).2 h3]; rfl

theorem unmarshalTokens_iff (d : Bytes) (l : List FIDTokenValue) :
    unmarshalTokens d = .ret (.ok l) ↔ CountedReads TokenValueReads d l := by
  cases d with
  | nil => simp [unmarshalTokens, CountedReads]
  | cons n r =>
    rw [unmarshalTokens, unmarshalList_iff _ _ unmarshalTokenValue_iff]
    exact ⟨fun h => ⟨n, r, rfl, h⟩, fun ⟨_, _, h1, h⟩ => by cases h1; exact h⟩

theorem unmarshalAcks_iff (d : Bytes) (l : List FIDTokenValueACK) :
    unmarshalAcks d = .ret (.ok l) ↔ CountedReads AckReads d l := by
  cases d with
  | nil => simp [unmarshalAcks, CountedReads]
  | cons n r =>
    rw [unmarshalAcks, unmarshalList_iff _ _ unmarshalAck_iff]
    exact ⟨fun h => ⟨n, r, rfl, h⟩, fun ⟨_, _, h1, h⟩ => by cases h1; exact h⟩

theorem unmarshalDevAuthInfo_iff (d : Bytes) (v : UInt8 × UInt8 × UInt8 × UInt8 × Bytes × Unit) :
    unmarshalDevAuthInfo d = .ok v ↔ AuthInfoReads d v := by
  obtain ⟨ma, mi, cur, max, data, u⟩ := v
  have hle : ∀ x : UInt8, x ≥ 0x02 ↔ 2 ≤ x.toNat := fun x => UInt8.le_iff_toNat_le
  simp only [AuthInfoReads]
  match d with
  | [] => simp [unmarshalDevAuthInfo]
  | [x] => simp [unmarshalDevAuthInfo]
  | a :: b :: r =>
    simp only [unmarshalDevAuthInfo, hle]
    by_cases h : 2 ≤ a.toNat
    · rw [if_pos h]
      match r with
      | [] => simp; grind
      | [x] => simp; grind
      | x :: y :: r => simp; grind
    · rw [if_neg h]
      simp
      grind

theorem unmarshalExtInfo_iff (d : Bytes) (v : UInt8 × ExtInfo × Unit) :
    unmarshalExtInfo d = .ok v ↔ ∃ r, d = v.1 :: r ∧ ExtInfoReads v.1 r v.2.1 := by
  obtain ⟨ty, i, u⟩ := v
  cases d with
  | nil =>
    rw [unmarshalExtInfo, binRead_short (n := 1) rfl (by decide)]
    simp
  | cons x r =>
    have h1 : binRead [.u8] (x :: r) = (.ok (x, ()), r) :=
      (binRead_iff _ _ _ _).2 ⟨[x], rfl, .cons (b := [x]) ((isBE1 x [x]).2 rfl) .nil⟩
    rw [unmarshalExtInfo, h1]
    simp only
    have rhs : (∃ r', x :: r = ty :: r' ∧ ExtInfoReads ty r' i) ↔ x = ty ∧ ExtInfoReads ty r i := by
      constructor
      · rintro ⟨r', h, h2⟩; cases h; exact ⟨rfl, h2⟩
      · rintro ⟨rfl, h⟩; exact ⟨r, rfl, h⟩
    rw [rhs]
    split
    · rename_i h; subst h
      have this : (match (binRead [.u32, .u32, .u16] r).1 with
          | .ok (a, b, c, _) => Except.ok ((0 : UInt8), ExtInfo.caps a b c, ())
          | .error e => .error e) = Except.ok (ty, i, u) ↔ ∃ v, (fun (a, b, c, _) => ((0 : UInt8), ExtInfo.caps a b c, ())) v = (ty, i, u) ∧ Begins [.u32, .u32, .u16] v r := by
        rw [← readAs_iff, readAs]
        cases (binRead [.u32, .u32, .u16] r).1 <;> rfl
      refine Iff.trans this ?_
      constructor
      · rintro ⟨⟨a, b, c, _⟩, h1, h2⟩; cases h1; exact ⟨rfl, rfl, h2⟩
      · rintro ⟨rfl, h⟩
        cases i <;> simp [ExtInfoReads] at h
        exact ⟨_, rfl, h⟩
    split
    · rename_i h0 h
      have this : (match (binRead [.u8, .u16, .u8] r).1 with
          | .ok (a, b, c, _) => Except.ok (x, ExtInfo.longText a b c, ())
          | .error e => .error e) = Except.ok (ty, i, u) ↔ ∃ v, (fun (a, b, c, _) => (x, ExtInfo.longText a b c, ())) v = (ty, i, u) ∧ Begins [.u8, .u16, .u8] v r := by
        rw [← readAs_iff, readAs]
        cases (binRead [.u8, .u16, .u8] r).1 <;> rfl
      refine Iff.trans this ?_
      constructor
      · rintro ⟨⟨a, b, c, _⟩, h1, h2⟩; cases h1; exact ⟨rfl, h, h2⟩
      · rintro ⟨rfl, h2⟩
        cases i <;> simp [ExtInfoReads, h0] at h2
        · exact ⟨_, rfl, h2.2⟩
        · grind
    · rename_i h0 h
      have : (binRead [] r).1 = .ok () := (binRead_fst_iff _ _ _).2 begins_nil
      rw [this]
      simp only [Except.ok.injEq, Prod.mk.injEq, and_true]
      constructor
      · rintro ⟨rfl, rfl⟩; exact ⟨rfl, h0, fun h' => h (.inl h'), fun h' => h (.inr h')⟩
      · rintro ⟨rfl, h2⟩
        cases i <;> simp [ExtInfoReads, h0] at h2
        · exact absurd h2.1 h
        · exact ⟨rfl, rfl⟩

theorem unmarshalArtworks_reads (n : Nat) (d : Bytes) (hd : d.length ≤ n) (l : List ArtworkFormat) :
    unmarshalArtworks d = .ok l ↔ ArtworksRead d l := by
  induction n generalizing d l with
  | zero =>
    have := List.eq_nil_of_length_eq_zero (Nat.le_zero.1 hd)
    subst this
    rw [unmarshalArtworks_nil]
    constructor
    · intro h; cases h; exact .nil
    · intro h
      generalize he : ([] : Bytes) = e at h
      cases h with
      | nil => rfl
      | cons h1 h2 => 
        have := structReads_size h1
        simp only [structSize, FTy.size, Option.bind_eq_bind, Option.bind_some, Option.some.injEq] at this
        have := congrArg List.length he
        simp at this; omega
  | succ n ih =>
    rw [unmarshalArtworks]
    split
    · rename_i h
      -- no bytes left
      have hnil : d = [] := by
        by_cases h7 : 7 ≤ d.length
        · obtain ⟨v, hv, _⟩ := binRead_long (fs := artworkSchema) (n := 7) rfl h7
          rw [hv] at h; simp at h
        · rw [binRead_short (n := 7) rfl (by omega)] at h
          simp only [Prod.mk.injEq, Except.error.injEq] at h
          by_cases h0 : d.length = 0
          · exact List.eq_nil_of_length_eq_zero h0
          · rw [if_neg h0] at h; simp at h
      subst hnil
      constructor
      · intro h; cases h; exact .nil
      · intro h
        generalize he : ([] : Bytes) = e at h
        cases h with
        | nil => rfl
        | cons h1 h2 => 
          have := structReads_size h1
          simp only [structSize, FTy.size, Option.bind_eq_bind, Option.bind_some, Option.some.injEq] at this
          have := congrArg List.length he
          simp at this; omega
    · rename_i e r hne h
      have h7 : d.length < 7 ∧ 0 < d.length := by
        by_cases h7 : 7 ≤ d.length
        · obtain ⟨v, hv, _⟩ := binRead_long (fs := artworkSchema) (n := 7) rfl h7
          rw [hv] at h; simp at h
        · refine ⟨by omega, ?_⟩
          rw [binRead_short (n := 7) rfl (by omega)] at h
          simp only [Prod.mk.injEq, Except.error.injEq] at h
          by_cases h0 : d.length = 0
          · rw [if_pos h0] at h
            exact absurd (by rw [← h.1]) hne
          · omega
      simp only [reduceCtorEq, false_iff]
      intro h
      cases h with
      | nil => simp at h7
      | cons h1 h2 =>
        have := structReads_size h1
        simp only [structSize, FTy.size, Option.bind_eq_bind, Option.bind_some, Option.some.injEq] at this
        simp at h7; omega
    · rename_i v rest h
      obtain ⟨b, hb, hr⟩ := (binRead_iff _ _ _ _).1 h
      have hlen := structReads_size hr
      have h7 : structSize artworkSchema = some 7 := rfl
      rw [h7] at hlen
      simp only [Option.some.injEq] at hlen
      have hlt : rest.length < d.length := by rw [hb]; simp; omega
      rw [dif_pos hlt]
      obtain ⟨a, p, w, hh, u⟩ := v
      constructor
      · intro h2
        cases hu : unmarshalArtworks rest with
        | error e => rw [hu] at h2; simp at h2
        | ok fs =>
          rw [hu] at h2
          simp only [Except.ok.injEq] at h2
          subst h2
          rw [hb]
          exact .cons hr ((ih rest (by omega) fs).1 hu)
      · intro h2
        cases h2 with
        | nil => simp at hlt
        | @cons b' rest' a' p' w' h' fs hr' hrest =>
          have h3 : binRead artworkSchema (b' ++ rest') = (.ok (a', p', w', h', ()), rest') :=
            (binRead_iff _ _ _ _).2 ⟨b', rfl, hr'⟩
          rw [h3] at h
          simp only [Prod.mk.injEq, Except.ok.injEq] at h
          obtain ⟨⟨rfl, rfl, rfl, rfl, _⟩, rfl⟩ := h
          rw [(ih rest' (by omega) fs).2 hrest]
          rfl

theorem unmarshalRates_reads (n : Nat) (d : Bytes) (hd : d.length ≤ n) (l : List UInt32) :
    unmarshalRates d = l ↔ RatesRead d l := by
  induction n generalizing d l with
  | zero =>
    have := List.eq_nil_of_length_eq_zero (Nat.le_zero.1 hd)
    subst this
    rw [show unmarshalRates [] = [] from rfl]
    constructor
    · rintro rfl; exact .nil (by decide)
    · intro h
      generalize he : ([] : Bytes) = e at h
      cases h with
      | nil _ => rfl
      | cons h1 h2 => have := congrArg List.length he; simp [h1.1] at this; omega
  | succ n ih =>
    by_cases h4 : d.length < 4
    · rw [unmarshalRates, Nat.div_eq_of_lt h4]
      simp only [readRates]
      constructor
      · rintro rfl; exact .nil h4
      · intro h
        cases h with
        | nil _ => rfl
        | cons h1 h2 => simp [h1.1] at h4; omega
    · have e : unmarshalRates d = UInt32.ofNat (beDec (d.take 4)) :: unmarshalRates (d.drop 4) := by
        rw [unmarshalRates, unmarshalRates, show d.length / 4 = (d.drop 4).length / 4 + 1 by simp; omega, readRates]
      have hlt := beDec_lt (d.take 4)
      rw [show (d.take 4).length = 4 by simp; omega] at hlt
      rw [e]
      constructor
      · rintro rfl
        rw [show RatesRead d = RatesRead (d.take 4 ++ d.drop 4) by rw [List.take_append_drop]]
        refine .cons ⟨by simp; omega, ?_⟩ ((ih _ (by simp; omega) _).1 rfl)
        rw [beVal_eq, UInt32.toNat_ofNat', Nat.mod_eq_of_lt (by omega)]
      · intro h
        cases h with
        | nil h => exact absurd h h4
        | @cons b r v vs h1 h2 =>
          rw [← h1.1, List.take_left, List.drop_left, (ih r (by simp [h1.1] at hd; omega) vs).2 h2, ← beVal_eq, h1.2,
            UInt32.ofNat_toNat]

theorem unmarshalButtons_iff (d : Bytes) (v : UInt32) : unmarshalButtons d = .ok v ↔ ButtonsRead d v := by
  rw [unmarshalButtons_eq, ButtonsRead]
  have hlt := leVal_lt (d.take 4)
  have hp : (256 : Nat) ^ (d.take 4).length ≤ 256 ^ 4 := Nat.pow_le_pow_right (by decide) (by simp; omega)
  by_cases h : d = []
  · simp [h]
  · rw [if_neg h, Except.ok.injEq, ← UInt32.toNat_inj, UInt32.toNat_ofNat', Nat.mod_eq_of_lt (by omega)]
    exact ⟨fun e => ⟨h, e.symm⟩, fun e => e.2.symm⟩

theorem unmarshalDispState_iff (d : Bytes) (v : UInt8 × DispState × Unit) :
    unmarshalDispState d = .ok v ↔ ∃ r, TypeByte d v.1 r ∧ DispStateReads v.1 r v.2.1 := by
  obtain ⟨ty, i, u⟩ := v
  cases hx : readOrZero .u8 0 d with
  | mk x r =>
    have hb := (readOrZero_u8 d x r).1 hx
    have uniq : ∀ r', TypeByte d ty r' ↔ x = ty ∧ r = r' := by
      intro r'
      rw [← readOrZero_u8, hx]
      simp
    have rhs : (∃ r', TypeByte d ty r' ∧ DispStateReads ty r' i) ↔ x = ty ∧ DispStateReads ty r i := by
      constructor
      · rintro ⟨r', h1, h2⟩
        obtain ⟨rfl, rfl⟩ := (uniq _).1 h1
        exact ⟨rfl, h2⟩
      · rintro ⟨rfl, h⟩; exact ⟨r, (uniq _).2 ⟨rfl, rfl⟩, h⟩
    simp only at rhs ⊢
    rw [rhs]
    rw [unmarshalDispState, hx]
    simp only
    have hn : ∀ n, n < 256 → (x.toNat = n ↔ x = UInt8.ofNat n) := by
      intro n hn
      rw [← UInt8.toNat_inj, UInt8.toNat_ofNat', Nat.mod_eq_of_lt hn]
    split
    all_goals try
      rename_i hxn
      rw [hn _ (by decide)] at hxn
      subst hxn
      rw [readAs_iff]
      constructor
      · first
          | (rintro ⟨⟨a, b, c, d, e, _⟩, h1, h2⟩; cases h1; exact ⟨rfl, rfl, h2⟩)
          | (rintro ⟨⟨a, b, c, _⟩, h1, h2⟩; cases h1; exact ⟨rfl, rfl, h2⟩)
          | (rintro ⟨⟨a, b, _⟩, h1, h2⟩; cases h1; exact ⟨rfl, rfl, h2⟩)
          | (rintro ⟨⟨a, _⟩, h1, h2⟩; cases h1; exact ⟨rfl, rfl, h2⟩)
      · rintro ⟨rfl, h⟩
        cases i <;> first
          | exact absurd h.1 (by decide)
          | exact h.elim
          | exact ⟨(_, _, _, _, _, ()), rfl, h.2⟩
          | exact ⟨(_, _, _, ()), rfl, h.2⟩
          | exact ⟨(_, _, ()), rfl, h.2⟩
          | exact ⟨(_, ()), rfl, h.2⟩
    simp only [reduceCtorEq, false_iff, not_and]
    rintro rfl h
    cases i <;> first
      | exact h.elim
      | (obtain ⟨h, _⟩ := h; subst h; simp at *)

theorem begins_bytes {fs : List FTy} (hs : structSize fs = none) (v : SVal fs) (r : Bytes) : ¬ Begins fs v r := by
  rintro ⟨b, rest, _, h⟩
  have := structReads_size h
  rw [hs] at this
  cases this

theorem unmarshalDispTrack_iff (d : Bytes) (v : UInt8 × DispTrack × Unit) :
    unmarshalDispTrack d = .ok v ↔ ∃ r, TypeByte d v.1 r ∧ DispTrackReads v.1 r v.2.1 := by
  obtain ⟨ty, i, u⟩ := v
  cases hx : readOrZero .u8 0 d with
  | mk x r =>
    have hb := (readOrZero_u8 d x r).1 hx
    have uniq : ∀ r', TypeByte d ty r' ↔ x = ty ∧ r = r' := by
      intro r'
      rw [← readOrZero_u8, hx]
      simp
    have rhs : (∃ r', TypeByte d ty r' ∧ DispTrackReads ty r' i) ↔ x = ty ∧ DispTrackReads ty r i := by
      constructor
      · rintro ⟨r', h1, h2⟩
        obtain ⟨rfl, rfl⟩ := (uniq _).1 h1
        exact ⟨rfl, h2⟩
      · rintro ⟨rfl, h⟩; exact ⟨r, (uniq _).2 ⟨rfl, rfl⟩, h⟩
    simp only at rhs ⊢
    rw [rhs]
    rw [unmarshalDispTrack, hx]
    simp only
    have hn : ∀ n, n < 256 → (x.toNat = n ↔ x = UInt8.ofNat n) := by
      intro n hn
      rw [← UInt8.toNat_inj, UInt8.toNat_ofNat', Nat.mod_eq_of_lt hn]
    split
    all_goals try
      rename_i hxn
      rw [hn _ (by decide)] at hxn
      subst hxn
      rw [readAs_iff]
      constructor
      · first
          | (rintro ⟨v, h1, h2⟩; exact absurd h2 (begins_bytes rfl v r))
          | (rintro ⟨⟨a, b, c, _⟩, h1, h2⟩; cases h1; exact ⟨rfl, rfl, h2⟩)
          | (rintro ⟨⟨a, _⟩, h1, h2⟩; cases h1; exact ⟨rfl, rfl, h2⟩)
      · rintro ⟨rfl, h⟩
        cases i <;> first
          | exact absurd h.1 (by decide)
          | exact h.elim
          | exact ⟨(_, _, _, ()), rfl, h.2⟩
          | exact ⟨(_, ()), rfl, h.2⟩
    simp only [reduceCtorEq, false_iff, not_and]
    rintro rfl h
    cases i <;> first
      | exact h.elim
      | (obtain ⟨h, _⟩ := h; subst h; simp at *)

theorem unmarshalModelNum_iff (d : Bytes) (v : UInt32 × Bytes × Unit) :
    unmarshalModelNum d = v ↔ NumOrZero 4 d v.1.toNat v.2.1 := by
  obtain ⟨id, r, u⟩ := v
  rw [← readOrZero_u32, unmarshalModelNum]
  cases readOrZero .u32 0 d
  simp

theorem appLaunch_iff (d : Bytes) (v : UInt8 × UInt8 × UInt8 × Bytes × Unit) :
    unmarshalAppLaunch d = .ret v ↔ d = [v.1, v.2.1, v.2.2.1] ++ v.2.2.2.1 := by
  obtain ⟨a, b, c, s, u⟩ := v
  rw [unmarshalAppLaunch_eq]
  match d with
  | [] => simp
  | [_] => simp
  | [_, _] => simp
  | x :: y :: z :: r => simp

theorem decode_fixed (t : TypeId) (r : Bytes) (v : t.Val) (h : t.unmarshalBinary r = none) :
    decodePayload t r = .ret (.ok v) ↔ Begins t.schema v r := by
  rw [decodePayload, h]
  simp only [Out.ret.injEq]
  exact binRead_fst_iff _ _ _

theorem decode_text (r b : Bytes) (u : Unit) :
    ((Out.ret (Except.ok (r, ())) : Out (Except Err (Bytes × Unit))) = .ret (.ok (b, u))) ↔ b = r := by
  simp [eq_comm]

theorem decode_map {α : Type} (t : TypeId) (r : Bytes) (f : α → t.Val) (x : Out (Except Err α))
    (h : t.unmarshalBinary r = mapVal f x) (v : t.Val) :
    decodePayload t r = .ret (.ok v) ↔ ∃ a, x = .ret (.ok a) ∧ f a = v := by
  rw [decodePayload, h, mapVal]
  cases x with
  | panic => simp
  | ret r => cases r <;> simp

theorem exists_pair {α : Type} (P : α → Prop) (v : α × Unit) : (∃ a, P a ∧ (a, ()) = v) ↔ P v.1 :=
  ⟨fun ⟨_, h, e⟩ => by subst e; exact h, fun h => ⟨_, h, rfl⟩⟩

theorem exists_triple {α : Type} (P : α → Prop) (v : α × Unit × Unit) : (∃ a, P a ∧ (a, (), ()) = v) ↔ P v.1 :=
  ⟨fun ⟨_, h, e⟩ => by subst e; exact h, fun h => ⟨_, h, rfl⟩⟩

theorem decode_gen (g : GenT) (r : Bytes) (v : (TypeId.gen g).Val) :
    decodePayload (.gen g) r = .ret (.ok v) ↔ Decodes (.gen g) r v := by
  cases g
  case ReturniPodName => exact decode_text r v.1 v.2
  case ReturniPodSerialNum => exact decode_text r v.1 v.2
  case RetDevAuthenticationSignature => exact decode_text r v.1 v.2
  case ReturniPodModelNum =>
    show Out.ret (Except.ok (unmarshalModelNum r)) = .ret (.ok v) ↔ NumOrZero 4 r v.1.toNat v.2.1
    rw [Out.ret.injEq, Except.ok.injEq]
    exact unmarshalModelNum_iff r v
  case RetDevAuthenticationInfo =>
    show Out.ret (unmarshalDevAuthInfo r) = .ret (.ok v) ↔ AuthInfoReads r v
    rw [Out.ret.injEq]
    exact unmarshalDevAuthInfo_iff r v
  case SetFIDTokenValues => 
    exact (decode_map (.gen .SetFIDTokenValues) r (fun l => (l, ())) _ rfl v).trans
      ((exists_pair _ v).trans (unmarshalTokens_iff r v.1))
  case RetFIDTokenValueACKs => 
    exact (decode_map (.gen .RetFIDTokenValueACKs) r (fun l => (l, ())) _ rfl v).trans
      ((exists_pair _ v).trans (unmarshalAcks_iff r v.1))
  case RequestApplicationLaunch =>
    have := appLaunch_iff r v
    show (unmarshalAppLaunch r >>= fun v => .ret (Except.ok v)) = .ret (Except.ok v) ↔ r = [v.1, v.2.1, v.2.2.1] ++ v.2.2.2.1
    rw [← this]
    cases unmarshalAppLaunch r <;> simp
  all_goals exact decode_fixed _ _ _ rfl

theorem decode_ext (g : ExtT) (r : Bytes) (v : (TypeId.ext g).Val) :
    decodePayload (.ext g) r = .ret (.ok v) ↔ Decodes (.ext g) r v := by
  cases g
  case ReturnIndexedPlayingTrackTitle => exact decode_text r v.1 v.2
  case ReturnIndexedPlayingTrackArtistName => exact decode_text r v.1 v.2
  case ReturnIndexedPlayingTrackAlbumName => exact decode_text r v.1 v.2
  case ReturnIndexedPlayingTrackInfo =>
    show Out.ret (unmarshalExtInfo r) = .ret (.ok v) ↔ ∃ r', r = v.1 :: r' ∧ ExtInfoReads v.1 r' v.2.1
    rw [Out.ret.injEq]
    exact unmarshalExtInfo_iff r v
  case RetArtworkFormats =>
    refine ((decode_map (.ext .RetArtworkFormats) r (fun l => (l, ())) _ rfl v).trans (exists_pair _ v)).trans ?_
    rw [Out.ret.injEq]
    exact unmarshalArtworks_reads _ r (Nat.le_refl _) v.1
  all_goals exact decode_fixed _ _ _ rfl

theorem decode_disp (g : DispT) (r : Bytes) (v : (TypeId.disp g).Val) :
    decodePayload (.disp g) r = .ret (.ok v) ↔ Decodes (.disp g) r v := by
  cases g
  case RetiPodStateInfo =>
    show Out.ret (unmarshalDispState r) = .ret (.ok v) ↔ ∃ r', TypeByte r v.1 r' ∧ DispStateReads v.1 r' v.2.1
    rw [Out.ret.injEq]
    exact unmarshalDispState_iff r v
  case RetIndexedPlayingTrackInfo =>
    show Out.ret (unmarshalDispTrack r) = .ret (.ok v) ↔ ∃ r', TypeByte r v.1 r' ∧ DispTrackReads v.1 r' v.2.1
    rw [Out.ret.injEq]
    exact unmarshalDispTrack_iff r v
  all_goals exact decode_fixed _ _ _ rfl

theorem decode_aud (g : AudT) (r : Bytes) (v : (TypeId.aud g).Val) :
    decodePayload (.aud g) r = .ret (.ok v) ↔ Decodes (.aud g) r v := by
  cases g
  case RetAccSampleRateCaps =>
    show Out.ret (Except.ok (unmarshalRates r, ())) = .ret (.ok v) ↔ RatesRead r v.1
    rw [← unmarshalRates_reads _ r (Nat.le_refl _) v.1]
    obtain ⟨l, u⟩ := v
    simp
  all_goals exact decode_fixed _ _ _ rfl

theorem decode_sim (g : SimT) (r : Bytes) (v : (TypeId.sim g).Val) :
    decodePayload (.sim g) r = .ret (.ok v) ↔ Decodes (.sim g) r v := by
  have btn : ∀ x : UInt32, Out.ret (unmarshalButtons r) = .ret (.ok x) ↔ ButtonsRead r x := by
    intro x
    rw [← unmarshalButtons_iff, Out.ret.injEq]
  cases g
  case ContextButtonStatus =>
    exact ((decode_map (.sim .ContextButtonStatus) r (fun x => (x, (), ())) _ rfl v).trans (exists_triple _ v)).trans (btn _)
  case VideoButtonStatus =>
    exact ((decode_map (.sim .VideoButtonStatus) r (fun x => (x, (), ())) _ rfl v).trans (exists_triple _ v)).trans (btn _)
  case AudioButtonStatus =>
    exact ((decode_map (.sim .AudioButtonStatus) r (fun x => (x, (), ())) _ rfl v).trans (exists_triple _ v)).trans (btn _)
  all_goals exact decode_fixed _ _ _ rfl

/-- A payload decodes to `v` exactly if its bytes mean `v`. -/
theorem decodePayload_iff (t : TypeId) (r : Bytes) (v : t.Val) :
    decodePayload t r = .ret (.ok v) ↔ Decodes t r v := by
  cases t with
  | gen g => exact decode_gen g r v
  | ext g => exact decode_ext g r v
  | disp g => exact decode_disp g r v
  | aud g => exact decode_aud g r v
  | sim g => exact decode_sim g r v

end Ipod
