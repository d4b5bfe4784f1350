import Verif.Lemmas.Decode
import Verif.Lemmas.Serde
import Verif.Spec.ErrText

/-! Lemmas about the texts of errors. -/

namespace Ipod
open Go Spec

/-- The computation fails with an error whose text is `s`. -/
def Fail {α : Type} (f : Err → Bytes) (x : Except Err α) (s : Bytes) : Prop := ∃ e, x = .error e ∧ f e = s

/-- The same for computations that may panic. -/
def FailO {α : Type} (f : Err → Bytes) (x : Out (Except Err α)) (s : Bytes) : Prop := ∃ e, x = .ret (.error e) ∧ f e = s

/-- `f` gives the two texts of package io. -/
structure IoTexts (f : Err → Bytes) : Prop where
  eof : f .eof = ascii "EOF"
  unexpected : f .unexpectedEOF = ascii "unexpected EOF"

theorem plainText_io : IoTexts plainText := ⟨by decide +kernel, by decide +kernel⟩

theorem codecText_io (lib : BinTexts) (t : TypeId) (d : Bytes) : IoTexts (codecText lib t d) :=
  ⟨by simp [codecText, Err.unknownInfo, Err.invalidType, plainText],
   by simp [codecText, Err.unknownInfo, Err.invalidType, plainText]⟩

theorem structText_io (lib : BinTexts) (t : TypeId) : IoTexts (structText lib t) :=
  ⟨by simp [structText, Err.invalidType, plainText], by simp [structText, Err.invalidType, plainText]⟩

theorem failO_ret {α : Type} (f : Err → Bytes) (x : Except Err α) (s : Bytes) : FailO f (.ret x) s ↔ Fail f x s := by
  constructor
  · rintro ⟨e, h, hs⟩; cases h; exact ⟨e, rfl, hs⟩
  · rintro ⟨e, h, hs⟩; cases h; exact ⟨e, rfl, hs⟩

theorem fail_ok {α : Type} (f : Err → Bytes) (v : α) (s : Bytes) : ¬ Fail f (.ok v) s := by rintro ⟨e, h, _⟩; cases h

theorem fail_error {α : Type} (f : Err → Bytes) (e : Err) (s : Bytes) : Fail f (.error e : Except Err α) s ↔ s = f e := by
  constructor
  · rintro ⟨e, h, hs⟩; cases h; exact hs.symm
  · rintro rfl; exact ⟨e, rfl, rfl⟩

theorem tooFew_iff (n : Nat) (r s : Bytes) :
    TooFew n r s ↔ r.length < n ∧ s = if r.length = 0 then ascii "EOF" else ascii "unexpected EOF" := by
  constructor
  · rintro (⟨h, rfl⟩ | ⟨h, h2⟩)
    · exact ⟨h, rfl⟩
    · refine ⟨h2, ?_⟩
      rw [if_neg]
      intro h3; exact h (List.eq_nil_of_length_eq_zero h3)
  · rintro ⟨h, rfl⟩
    split
    · rename_i h0
      exact .none (by omega) (List.eq_nil_of_length_eq_zero h0)
    · rename_i h0
      exact .some (by rintro rfl; exact h0 rfl) h

theorem fail_binRead {f : Err → Bytes} (hf : IoTexts f) {fs : List FTy} {n : Nat} (h : structSize fs = some n) (r s : Bytes) :
    Fail f (binRead fs r).1 s ↔ TooFew n r s := by
  rw [tooFew_iff]
  by_cases hr : r.length < n
  · rw [binRead_short h hr, fail_error]
    split
    · simp [hr, hf.eof]
    · simp [hr, hf.unexpected]
  · obtain ⟨v, hv, _⟩ := binRead_long h (r := r) (by omega)
    rw [hv]
    constructor
    · intro h; exact absurd h (fail_ok _ _ _)
    · rintro ⟨h, _⟩; exact absurd h hr

theorem fail_readAs {α : Type} {f : Err → Bytes} (hf : IoTexts f) {fs : List FTy} {n : Nat} (h : structSize fs = some n)
    (r s : Bytes) (g : SVal fs → α) : Fail f (readAs fs r g) s ↔ TooFew n r s := by
  rw [← fail_binRead hf h, readAs]
  cases (binRead fs r).1 with
  | ok v => exact ⟨fun h => absurd h (fail_ok _ _ _), fun h => absurd h (fail_ok _ _ _)⟩
  | error e => rw [fail_error, fail_error]

theorem failO_tokenRead {f : Err → Bytes} (hf : IoTexts f) {fs : List FTy} {n : Nat} (h : structSize fs = some n)
    (r s : Bytes) (g : SVal fs → FIDToken) : FailO f (tokenRead fs r g) s ↔ TooFew n r s := by
  rw [← fail_binRead hf h, tokenRead]
  cases (binRead fs r).1 with
  | ok v => rw [failO_ret]; exact ⟨fun h => absurd h (fail_ok _ _ _), fun h => absurd h (fail_ok _ _ _)⟩
  | error e => rw [failO_ret, fail_error, fail_error]

theorem not_tooFew_zero (r s : Bytes) : ¬ TooFew 0 r s := by rw [tooFew_iff]; omega

theorem fail_accInfo {f : Err → Bytes} (hk : f Err.unknownInfo = ascii "unknown AccInfoToken type") (d s : Bytes) :
    Fail f (unmarshalAccInfo d) s ↔
      s = ascii "unknown AccInfoToken type" ∧ ∀ k r, d = k :: r → k ∉ accInfoKinds := by
  cases d with
  | nil =>
    have : unmarshalAccInfo [] = .error Err.unknownInfo := by decide +kernel
    rw [this, fail_error, hk]; simp
  | cons k r =>
    simp only [unmarshalAccInfo, readOrZero_u8_cons]
    have e : (∀ k' r', k :: r = k' :: r' → k' ∉ accInfoKinds) ↔ k ∉ accInfoKinds := by
      constructor
      · intro h; exact h k r rfl
      · intro h k' r' he; cases he; exact h
    rw [e]
    have hmem : k ∈ accInfoKinds ↔ (k = 0x01 ∨ k = 0x06 ∨ k = 0x07 ∨ k = 0x08) ∨ (k = 0x04 ∨ k = 0x05) ∨ k = 0x09 ∨
        (k = 0x0b ∨ k = 0x0c) := by
      simp only [accInfoKinds, List.mem_cons, List.not_mem_nil, or_false]
      grind
    rw [hmem]
    split
    · rename_i h; simp [fail_ok, h]
    split
    · rename_i h; simp [fail_ok, h]
    split
    · rename_i h; simp [fail_ok, h]
    split
    · rename_i h; simp [fail_ok, h]
    rename_i h1 h2 h3 h4
    rw [fail_error, hk]
    simp [h1, h2, h3, h4]

theorem fail_identify {f : Err → Bytes} (hf : IoTexts f) (d s : Bytes) : Fail f (unmarshalIdentify d) s ↔ TooFew 1 d s := by
  rw [tooFew_iff]
  cases d with
  | nil => rw [unmarshalIdentify, fail_error, hf.eof]; simp
  | cons n r =>
    constructor
    · rintro ⟨e, h, _⟩
      simp [unmarshalIdentify] at h
    · rintro ⟨h, _⟩; simp at h

theorem failO_token {f : Err → Bytes} (hf : IoTexts f) (hk : f Err.unknownInfo = ascii "unknown AccInfoToken type")
    (id : TokenID) (body s : Bytes) :
    FailO f (unmarshalToken id body) s ↔
      TooFew (tokenBytes id) body s ∨ (id = ⟨0x00, 0x02⟩ ∧ s = ascii "unknown AccInfoToken type" ∧
        ∀ k r, body = k :: r → k ∉ accInfoKinds) := by
  obtain ⟨ty, sub⟩ := id
  by_cases h0 : ty = 0x00
  · subst h0
    by_cases hs : sub ∈ [(0x00 : UInt8), 0x01, 0x02, 0x03, 0x04, 0x05, 0x07, 0x08]
    · simp only [List.mem_cons, List.not_mem_nil, or_false] at hs
      rcases hs with rfl | rfl | rfl | rfl | rfl | rfl | rfl | rfl
      · rw [show unmarshalToken ⟨0x00, 0x00⟩ body = .ret (unmarshalIdentify body) from rfl, failO_ret, fail_identify hf,
          show tokenBytes ⟨0x00, 0x00⟩ = 1 from rfl]
        simp
      · rw [show unmarshalToken ⟨0x00, 0x01⟩ body = .ret (.ok (.accCaps (readOrZero .u64 0 body).1)) from rfl, failO_ret,
          show tokenBytes ⟨0x00, 0x01⟩ = 0 from rfl]
        simp [fail_ok, not_tooFew_zero]
      · rw [show unmarshalToken ⟨0x00, 0x02⟩ body = .ret (unmarshalAccInfo body) from rfl, failO_ret, fail_accInfo hk,
          show tokenBytes ⟨0x00, 0x02⟩ = 0 from rfl]
        simp [not_tooFew_zero]
      · rw [show unmarshalToken ⟨0x00, 0x03⟩ body = tokenRead [.u8, .u8, .u8] body fun (a, b, c, _) => .ipodPref a b c
          from rfl, failO_tokenRead hf (n := 3) rfl, show tokenBytes ⟨0x00, 0x03⟩ = 3 from rfl]
        simp
      · rw [show unmarshalToken ⟨0x00, 0x04⟩ body = (index body 0 >>= fun i =>
          dropOrPanic body 1 >>= fun s => .ret (.ok (.eaProtocol i s))) from rfl, show tokenBytes ⟨0x00, 0x04⟩ = 0 from rfl]
        cases body with
        | nil => simp [index, FailO, not_tooFew_zero]
        | cons x r => simp [index, dropOrPanic, FailO, not_tooFew_zero]
      · rw [show unmarshalToken ⟨0x00, 0x05⟩ body = tokenRead [.arr 11] body fun (s, _) => .bundleSeed s from rfl,
          failO_tokenRead hf (n := 11) rfl, show tokenBytes ⟨0x00, 0x05⟩ = 11 from rfl]
        simp
      · rw [show unmarshalToken ⟨0x00, 0x07⟩ body = tokenRead screenInfoSchema body fun (a, b, c, d, e, f, g, h, _) =>
          .screenInfo a b c d e f g h from rfl, failO_tokenRead hf (n := 14) rfl, show tokenBytes ⟨0x00, 0x07⟩ = 14 from rfl]
        simp
      · rw [show unmarshalToken ⟨0x00, 0x08⟩ body = tokenRead [.u8, .u8] body fun (a, b, _) => .eaMetadata a b from rfl,
          failO_tokenRead hf (n := 2) rfl, show tokenBytes ⟨0x00, 0x08⟩ = 2 from rfl]
        simp
    · have hkn : ¬ knownTokenID ⟨0x00, sub⟩ := by
        rintro (h | ⟨_, h⟩)
        · exact absurd (show (0 : UInt8) = 1 from h) (by decide)
        · exact hs h
      rw [unmarshalToken_raw _ hkn, failO_ret]
      have ht : tokenBytes ⟨0x00, sub⟩ = 0 := by
        have hn : ∀ n, n < 256 → (sub.toNat = n ↔ sub = UInt8.ofNat n) := by
          intro n hn
          rw [← UInt8.toNat_inj, UInt8.toNat_ofNat', Nat.mod_eq_of_lt hn]
        simp only [tokenBytes]
        rw [if_neg (by decide), if_pos trivial]
        split <;> first
          | rfl
          | (rename_i h; rw [hn _ (by decide)] at h; subst h; simp at hs)
      rw [ht]
      have h2 : sub ≠ 0x02 := by rintro rfl; simp at hs
      simp [fail_ok, not_tooFew_zero, h2]
  · by_cases h1 : ty = 0x01
    · subst h1
      rw [show unmarshalToken ⟨0x01, sub⟩ body = tokenRead [.u32] body fun (m, _) => .micCaps m from rfl,
        failO_tokenRead hf (n := 4) rfl, show tokenBytes ⟨0x01, sub⟩ = 4 from rfl]
      simp
    · have hkn : ¬ knownTokenID ⟨ty, sub⟩ := by
        rintro (h | ⟨h, _⟩)
        · exact h1 h
        · exact h0 h
      rw [unmarshalToken_raw _ hkn, failO_ret]
      have ht : tokenBytes ⟨ty, sub⟩ = 0 := by simp only [tokenBytes]; rw [if_neg h1, if_neg h0]
      rw [ht]
      simp [fail_ok, not_tooFew_zero, h0]

theorem failO_tokenValue {f : Err → Bytes} (hf : IoTexts f) (hk : f Err.unknownInfo = ascii "unknown AccInfoToken type")
    (d s : Bytes) : FailO f (unmarshalTokenValue d) s ↔ TokenFails d s := by
  have hid : Fail f (binRead [.u8, .u8] d).1 s ↔ TooFew 2 d s := fail_binRead hf rfl d s
  rw [unmarshalTokenValue]
  rcases binRead_2u8_iff d with ⟨a, b, r, rfl, h⟩ | ⟨hl, e, r, h⟩
  · rw [h]
    simp only
    have key : FailO f (unmarshalToken ⟨a, b⟩ r >>= fun t => match t with
        | .error e => .ret (.error e)
        | .ok t => .ret (.ok (⟨⟨a, b⟩, t⟩ : FIDTokenValue))) s ↔ FailO f (unmarshalToken ⟨a, b⟩ r) s := by
      cases unmarshalToken ⟨a, b⟩ r with
      | panic => simp [FailO]
      | ret x => cases x <;> simp [FailO]
    refine key.trans ?_
    rw [failO_token hf hk]
    constructor
    · rintro (h | ⟨h1, rfl, h3⟩)
      · exact .body (id := ⟨a, b⟩) rfl h
      · cases h1
        exact .kind rfl h3
    · intro h
      cases h with
      | id h => rw [tooFew_iff] at h; simp at h; omega
      | body h1 h2 =>
        rename_i id body
        simp only [List.cons.injEq] at h1
        obtain ⟨rfl, rfl, rfl⟩ := h1
        exact .inl h2
      | kind h1 h2 =>
        simp only [List.cons.injEq] at h1
        obtain ⟨rfl, rfl, rfl⟩ := h1
        exact .inr ⟨rfl, rfl, h2⟩
  · rw [h] at hid ⊢
    simp only at hid ⊢
    rw [failO_ret]
    refine Iff.trans ?_ (hid.trans ?_)
    · rw [fail_error, fail_error]
    · constructor
      · exact .id
      · intro h
        cases h with
        | id h => exact h
        | body h1 _ => rw [h1] at hl; simp at hl; omega
        | kind h1 _ => rw [h1] at hl; simp at hl; omega

theorem failO_ack {f : Err → Bytes} (hf : IoTexts f) (d s : Bytes) : FailO f (unmarshalAck d) s ↔ TooFew 2 d s := by
  have hid : Fail f (binRead [.u8, .u8] d).1 s ↔ TooFew 2 d s := fail_binRead hf rfl d s
  rw [unmarshalAck]
  rcases binRead_2u8_iff d with ⟨a, b, r, rfl, h⟩ | ⟨hl, e, r, h⟩
  · rw [h, ← hid, h]; simp only; rw [failO_ret]; simp [fail_ok]
  · rw [h] at hid ⊢; simp only at hid ⊢; rw [failO_ret, ← hid, fail_error, fail_error]

theorem failO_list {α : Type} {f : Err → Bytes} (hf : IoTexts f) (dec : Bytes → Out (Except Err α)) (R : Bytes → α → Prop)
    (F : Bytes → Bytes → Prop) (hR : ∀ d v, dec d = .ret (.ok v) ↔ R d v) (hF : ∀ d s, FailO f (dec d) s ↔ F d s) (n : Nat)
    (r s : Bytes) : FailO f (unmarshalList dec n r) s ↔ ListFails R F n r s := by
  induction n generalizing r with
  | zero =>
    rw [unmarshalList, failO_ret]
    constructor
    · intro h; exact absurd h (fail_ok _ _ _)
    · intro h; cases h
  | succ n ih =>
    rw [unmarshalList.eq_def]
    cases r with
    | nil =>
      simp only
      rw [failO_ret, fail_error, hf.eof]
      constructor
      · rintro rfl; exact .missing
      · intro h; cases h; rfl
    | cons len r =>
      simp only
      cases hd : dec (r.take len.toNat) with
      | panic =>
        simp only [Out.bind_panic]
        constructor
        · rintro ⟨e, h, _⟩; cases h
        · intro h
          cases h with
          | here h => rw [← hF, hd] at h; obtain ⟨e, h, _⟩ := h; cases h
          | later h _ => rw [← hR, hd] at h; cases h
      | ret x =>
        cases x with
        | error e =>
          simp only [Out.bind_ret]
          rw [failO_ret, fail_error]
          constructor
          · rintro rfl; exact .here ((hF _ _).1 ⟨e, hd, rfl⟩)
          · intro h
            cases h with
            | here h => rw [← hF, hd, failO_ret, fail_error] at h; exact h
            | later h _ => rw [← hR, hd] at h; cases h
        | ok v =>
          simp only [Out.bind_ret]
          have key : FailO f (unmarshalList dec n (r.drop len.toNat) >>= fun vs => match vs with
              | .error e => .ret (.error e)
              | .ok vs => .ret (.ok (v :: vs))) s ↔ FailO f (unmarshalList dec n (r.drop len.toNat)) s := by
            cases unmarshalList dec n (r.drop len.toNat) with
            | panic => simp [FailO]
            | ret x => cases x <;> simp [FailO]
          refine key.trans ?_
          rw [ih]
          constructor
          · intro h; exact .later ((hR _ _).1 hd) h
          · intro h
            cases h with
            | here h => rw [← hF, hd, failO_ret] at h; exact absurd h (fail_ok _ _ _)
            | later _ h => exact h

theorem failO_mapVal {α β : Type} {f : Err → Bytes} (g : α → β) (x : Out (Except Err α)) (s : Bytes) (y : Out (Except Err β))
    (h : mapVal g x = some y) : FailO f y s ↔ FailO f x s := by
  simp only [mapVal, Option.some.injEq] at h
  subst h
  cases x with
  | panic => simp [FailO]
  | ret x => cases x <;> simp [FailO]

theorem failO_tokens {f : Err → Bytes} (hf : IoTexts f) (hk : f Err.unknownInfo = ascii "unknown AccInfoToken type")
    (d s : Bytes) : FailO f (unmarshalTokens d) s ↔ CountedFails TokenValueReads TokenFails d s := by
  cases d with
  | nil =>
    rw [unmarshalTokens, failO_ret, fail_error, hf.eof]
    exact ⟨fun h => h ▸ .missing, fun h => by cases h; rfl⟩
  | cons n r =>
    rw [unmarshalTokens, failO_list hf _ _ _ unmarshalTokenValue_iff (failO_tokenValue hf hk)]
    exact ⟨.list, fun h => by cases h; assumption⟩

theorem failO_acks {f : Err → Bytes} (hf : IoTexts f) (d s : Bytes) :
    FailO f (unmarshalAcks d) s ↔ CountedFails AckReads (TooFew 2) d s := by
  cases d with
  | nil =>
    rw [unmarshalAcks, failO_ret, fail_error, hf.eof]
    exact ⟨fun h => h ▸ .missing, fun h => by cases h; rfl⟩
  | cons n r =>
    rw [unmarshalAcks, failO_list hf _ _ _ unmarshalAck_iff (failO_ack hf)]
    exact ⟨.list, fun h => by cases h; assumption⟩

theorem fail_devAuthInfo {f : Err → Bytes} (hk : f Err.shortPacket = ascii "short packet") (d s : Bytes) :
    Fail f (unmarshalDevAuthInfo d) s ↔ s = ascii "short packet" ∧
      (d.length < 2 ∨ d.length < 4 ∧ ∃ major r, d = major :: r ∧ 2 ≤ major.toNat) := by
  have hle : ∀ x : UInt8, x ≥ 0x02 ↔ 2 ≤ x.toNat := fun x => UInt8.le_iff_toNat_le
  match d with
  | [] => simp [unmarshalDevAuthInfo, fail_error, hk]
  | [x] => simp [unmarshalDevAuthInfo, fail_error, hk]
  | [x, y] =>
    by_cases h : x ≥ 0x02
    · simp [unmarshalDevAuthInfo, h, fail_error, hk, (hle x).1 h]
    · have h2 : x.toNat < 2 := Nat.not_le.1 (fun g => h ((hle x).2 g))
      simp [unmarshalDevAuthInfo, h, fail_ok, h2]
  | [x, y, z] =>
    by_cases h : x ≥ 0x02
    · simp [unmarshalDevAuthInfo, h, fail_error, hk, (hle x).1 h]
    · have h2 : x.toNat < 2 := Nat.not_le.1 (fun g => h ((hle x).2 g))
      simp [unmarshalDevAuthInfo, h, fail_ok, h2]
  | x :: y :: z :: w :: r =>
    have : ¬ ((x :: y :: z :: w :: r).length < 2 ∨ (x :: y :: z :: w :: r).length < 4 ∧
      ∃ major r', x :: y :: z :: w :: r = major :: r' ∧ 2 ≤ major.toNat) := by
      simp only [List.length_cons]; omega
    simp only [this, and_false, iff_false]
    by_cases h : x ≥ 0x02
    · simp [unmarshalDevAuthInfo, h, fail_ok]
    · simp [unmarshalDevAuthInfo, h, fail_ok]

theorem fail_extInfo {f : Err → Bytes} (hf : IoTexts f) (d s : Bytes) :
    Fail f (unmarshalExtInfo d) s ↔ TooFew 1 d s ∨ (∃ r, d = 0x00 :: r ∧ TooFew 10 r s) ∨
      ∃ ty r, d = ty :: r ∧ (ty = 0x03 ∨ ty = 0x04) ∧ TooFew 4 r s := by
  cases d with
  | nil =>
    rw [unmarshalExtInfo, binRead_u8_nil, fail_error, hf.eof, tooFew_iff]
    simp
  | cons x r =>
    rw [unmarshalExtInfo, binRead_u8_cons]
    simp only
    have h1 : ¬ TooFew 1 (x :: r) s := by rw [tooFew_iff]; simp
    have h2 : (∃ r', x :: r = 0x00 :: r' ∧ TooFew 10 r' s) ↔ x = 0x00 ∧ TooFew 10 r s := by
      constructor
      · rintro ⟨r', h, h2⟩; cases h; exact ⟨rfl, h2⟩
      · rintro ⟨rfl, h⟩; exact ⟨r, rfl, h⟩
    have h3 : (∃ ty r', x :: r = ty :: r' ∧ (ty = 0x03 ∨ ty = 0x04) ∧ TooFew 4 r' s) ↔
        (x = 0x03 ∨ x = 0x04) ∧ TooFew 4 r s := by
      constructor
      · rintro ⟨ty, r', h, h2⟩; cases h; exact h2
      · rintro h; exact ⟨x, r, rfl, h⟩
    rw [h2, h3, ← fail_binRead hf (fs := [.u32, .u32, .u16]) rfl, ← fail_binRead hf (fs := [.u8, .u16, .u8]) rfl]
    simp only [h1, false_or]
    split
    · rename_i h; subst h
      simp only [true_and, show ¬ ((0 : UInt8) = 0x03 ∨ (0 : UInt8) = 0x04) by decide, false_and, or_false]
      cases (binRead [.u32, .u32, .u16] r).1 with
      | ok v => obtain ⟨a, b, c, u⟩ := v; simp [fail_ok]
      | error e => rw [fail_error, fail_error]
    split
    · rename_i h0 h
      simp only [h0, false_and, h, true_and, false_or]
      cases (binRead [.u8, .u16, .u8] r).1 with
      | ok v => obtain ⟨a, b, c, u⟩ := v; simp [fail_ok]
      | error e => rw [fail_error, fail_error]
    · rename_i h0 h
      have : (binRead [] r).1 = .ok () := (binRead_fst_iff _ _ _).2 begins_nil
      rw [this]
      simp [h0, h, fail_ok]

theorem fail_artworks {f : Err → Bytes} (hf : IoTexts f) (n : Nat) (d : Bytes) (hd : d.length ≤ n) (s : Bytes) :
    Fail f (unmarshalArtworks d) s ↔ d.length % 7 ≠ 0 ∧ s = ascii "unexpected EOF" := by
  induction n generalizing d with
  | zero =>
    have := List.eq_nil_of_length_eq_zero (Nat.le_zero.1 hd)
    subst this
    rw [unmarshalArtworks_nil]
    simp [fail_ok]
  | succ n ih =>
    by_cases h7 : 7 ≤ d.length
    · obtain ⟨v, hv, _⟩ := binRead_long (fs := artworkSchema) (n := 7) rfl h7
      have hlt : (d.drop 7).length < d.length := by simp; omega
      have e : Fail f (unmarshalArtworks d) s ↔ Fail f (unmarshalArtworks (d.drop 7)) s := by
        rw [unmarshalArtworks]
        split
        · rename_i h; rw [hv] at h; simp at h
        · rename_i h; rw [hv] at h; simp at h
        · rename_i w rest h
          rw [hv] at h
          simp only [Prod.mk.injEq, Except.ok.injEq] at h
          obtain ⟨rfl, rfl⟩ := h
          rw [dif_pos hlt]
          cases unmarshalArtworks (d.drop 7) with
          | ok l => simp [fail_ok]
          | error e => simp [fail_error]
      rw [e, ih _ (by simp; omega)]
      simp only [List.length_drop]
      rw [show (d.length - 7) % 7 = d.length % 7 by omega]
    · have hs := binRead_short (fs := artworkSchema) (n := 7) rfl (r := d) (by omega)
      by_cases h0 : d.length = 0
      · have := List.eq_nil_of_length_eq_zero h0
        subst this
        rw [unmarshalArtworks_nil]
        simp [fail_ok]
      · rw [if_neg h0] at hs
        rw [unmarshalArtworks]
        split
        · rename_i h; rw [hs] at h; simp at h
        · rename_i e r hne h
          rw [hs] at h
          simp only [Prod.mk.injEq, Except.error.injEq] at h
          rw [← h.1, fail_error, hf.unexpected]
          simp only [ne_eq, iff_and_self]
          intro _; omega
        · rename_i h; rw [hs] at h; simp at h

theorem fail_buttons {f : Err → Bytes} (hk : f Err.invalidData = ascii "invalid data") (d s : Bytes) :
    Fail f (unmarshalButtons d) s ↔ d = [] ∧ s = ascii "invalid data" := by
  rw [unmarshalButtons_eq]
  by_cases h : d = []
  · rw [if_pos h, fail_error, hk]; simp [h]
  · rw [if_neg h]; simp [h, fail_ok]

theorem typeByte_ex (d : Bytes) (P : UInt8 → Bytes → Prop) (x : UInt8) (r : Bytes) (h : readOrZero .u8 0 d = (x, r)) :
    (∃ ty r', TypeByte d ty r' ∧ P ty r') ↔ P x r := by
  constructor
  · rintro ⟨ty, r', h1, h2⟩
    rw [← readOrZero_u8, h] at h1
    cases h1; exact h2
  · intro hp; exact ⟨x, r, (readOrZero_u8 _ _ _).1 h, hp⟩

theorem fail_dispState {f : Err → Bytes} (hf : IoTexts f) (hk : f Err.unknownInfo = ascii "unknown info type") (d s : Bytes) :
    Fail f (unmarshalDispState d) s ↔ ∃ ty r, TypeByte d ty r ∧
      ((stateInfoBytes ty = none ∧ s = ascii "unknown info type") ∨ ∃ n, stateInfoBytes ty = some n ∧ TooFew n r s) := by
  cases hx : readOrZero .u8 0 d with
  | mk x r =>
    rw [typeByte_ex d (fun ty r => (stateInfoBytes ty = none ∧ s = ascii "unknown info type") ∨
      ∃ n, stateInfoBytes ty = some n ∧ TooFew n r s) x r hx, unmarshalDispState, hx]
    simp only [stateInfoBytes]
    split
    case h_17 =>
      rw [fail_error, hk]
      rename_i h1 h2 h3 h4 h5 h6 h7 h8 h9 h10 h11 h12 h13 h14 h15 h16
      split
      all_goals first
        | (exfalso; simp_all; done)
        | simp
    all_goals
      rename_i hxn
      simp only [hxn, reduceCtorEq, false_and, false_or, Option.some.injEq]
      rw [fail_readAs hf rfl]
      exact ⟨fun h => ⟨_, rfl, h⟩, fun ⟨n, hn, h⟩ => by subst hn; exact h⟩

theorem readAs_none {α : Type} {fs : List FTy} (h : structSize fs = none) (r : Bytes) (g : SVal fs → α) :
    readAs fs r g = .error Err.invalidType := by rw [readAs, binRead_none h]

theorem fail_dispTrack (lib : BinTexts) {f : Err → Bytes} (hf : IoTexts f) (d s : Bytes)
    (hk : f Err.unknownInfo = ascii "unknown info type")
    (hi : f Err.invalidType = lib.read (dispTrackPtrName (readOrZero .u8 0 d).1)) :
    Fail f (unmarshalDispTrack d) s ↔ ∃ ty r, TypeByte d ty r ∧
      ((8 < ty.toNat ∧ s = ascii "unknown info type") ∨
       (∃ n, trackTextName ty = some n ∧ s = lib.read (ascii "*dispremote.TrackInfo" ++ ascii n)) ∨
       (ty = 0x00 ∧ TooFew 10 r s) ∨ (ty = 0x08 ∧ TooFew 1 r s)) := by
  cases hx : readOrZero .u8 0 d with
  | mk x r =>
    rw [typeByte_ex d (fun ty r => (8 < ty.toNat ∧ s = ascii "unknown info type") ∨
       (∃ n, trackTextName ty = some n ∧ s = lib.read (ascii "*dispremote.TrackInfo" ++ ascii n)) ∨
       (ty = 0x00 ∧ TooFew 10 r s) ∨ (ty = 0x08 ∧ TooFew 1 r s)) x r hx, unmarshalDispTrack, hx]
    rw [hx] at hi
    simp only at hi ⊢
    have hn : ∀ n, n < 256 → (x.toNat = n ↔ x = UInt8.ofNat n) := by
      intro n hn
      rw [← UInt8.toNat_inj, UInt8.toNat_ofNat', Nat.mod_eq_of_lt hn]
    have text : ∀ (nm : String), dispTrackPtrName x = ascii "*dispremote.TrackInfo" ++ ascii nm → trackTextName x = some nm →
        ¬ 8 < x.toNat → x ≠ 0 → x ≠ 8 →
        (s = f Err.invalidType ↔ ((8 < x.toNat ∧ s = ascii "unknown info type") ∨
          (∃ n, trackTextName x = some n ∧ s = lib.read (ascii "*dispremote.TrackInfo" ++ ascii n)) ∨
          (x = 0x00 ∧ TooFew 10 r s) ∨ (x = 0x08 ∧ TooFew 1 r s))) := by
      intro nm h1 h2 h3 h4 h5
      rw [hi, h1, h2]
      simp [h3, h4, h5]
    split
    · rename_i h; rw [hn _ (by decide)] at h; subst h
      rw [fail_readAs hf (n := 10) rfl]
      simp [trackTextName]
    · rename_i h; rw [hn _ (by decide)] at h; subst h
      rw [readAs_none rfl, fail_error]
      exact text "ChapterTimeName" (by decide +kernel) rfl (by decide) (by decide) (by decide)
    · rename_i h; rw [hn _ (by decide)] at h; subst h
      rw [readAs_none rfl, fail_error]
      exact text "Artist" (by decide +kernel) rfl (by decide) (by decide) (by decide)
    · rename_i h; rw [hn _ (by decide)] at h; subst h
      rw [readAs_none rfl, fail_error]
      exact text "Album" (by decide +kernel) rfl (by decide) (by decide) (by decide)
    · rename_i h; rw [hn _ (by decide)] at h; subst h
      rw [readAs_none rfl, fail_error]
      exact text "Genre" (by decide +kernel) rfl (by decide) (by decide) (by decide)
    · rename_i h; rw [hn _ (by decide)] at h; subst h
      rw [readAs_none rfl, fail_error]
      exact text "Track" (by decide +kernel) rfl (by decide) (by decide) (by decide)
    · rename_i h; rw [hn _ (by decide)] at h; subst h
      rw [readAs_none rfl, fail_error]
      exact text "Composer" (by decide +kernel) rfl (by decide) (by decide) (by decide)
    · rename_i h; rw [hn _ (by decide)] at h; subst h
      rw [readAs_none rfl, fail_error]
      exact text "Lyrics" (by decide +kernel) rfl (by decide) (by decide) (by decide)
    · rename_i h; rw [hn _ (by decide)] at h; subst h
      rw [fail_readAs hf (n := 1) rfl]
      simp [trackTextName]
    · rename_i h0 h1 h2 h3 h4 h5 h6 h7 h8
      have ne : ∀ k, (x.toNat = k → False) → x.toNat ≠ k := fun _ h => h
      have h9 : 8 < x.toNat := by
        have := ne _ h0; have := ne _ h1; have := ne _ h2; have := ne _ h3; have := ne _ h4
        have := ne _ h5; have := ne _ h6; have := ne _ h7; have := ne _ h8
        omega
      have ht : trackTextName x = none := by
        simp only [trackTextName]
      have hz : x ≠ 0 := by rintro rfl; simp at h9
      have he : x ≠ 8 := by rintro rfl; simp at h9
      rw [fail_error, hk, ht]
      simp [h9, hz, he]

theorem unmarshalBinary_own (t : TypeId) (d : Bytes) : (t.unmarshalBinary d).isSome = true ↔ t ∈ ownDecoder := by
  cases t with
  | gen t => cases t <;> simp [TypeId.unmarshalBinary, ownDecoder, okVal, mapVal]
  | ext t => cases t <;> simp [TypeId.unmarshalBinary, ownDecoder, okVal, mapVal]
  | disp t => cases t <;> simp [TypeId.unmarshalBinary, ownDecoder]
  | aud t => cases t <;> simp [TypeId.unmarshalBinary, ownDecoder, okVal]
  | sim t => cases t <;> simp [TypeId.unmarshalBinary, ownDecoder, mapVal]

theorem failO_okVal {α : Type} {f : Err → Bytes} {v : α} {y : Out (Except Err α)} (s : Bytes) (h : okVal v = some y) :
    ¬ FailO f y s := by
  simp only [okVal, Option.some.injEq] at h
  subst h
  rw [failO_ret]; exact fail_ok _ _ _

/-- The errors of the types' own decoders. -/
theorem failO_codec (lib : BinTexts) (t : TypeId) (d s : Bytes) (y : Out (Except Err t.Val))
    (h : t.unmarshalBinary d = some y) : FailO (codecText lib t d) y s ↔ CodecFails lib t d s := by
  have hf := codecText_io lib t d
  cases t with
  | gen t =>
    cases t
    case ReturniPodName => exact ⟨fun h' => absurd h' (failO_okVal s h), fun h' => h'.elim⟩
    case ReturniPodSerialNum => exact ⟨fun h' => absurd h' (failO_okVal s h), fun h' => h'.elim⟩
    case ReturniPodModelNum => exact ⟨fun h' => absurd h' (failO_okVal s h), fun h' => h'.elim⟩
    case RetDevAuthenticationSignature => exact ⟨fun h' => absurd h' (failO_okVal s h), fun h' => h'.elim⟩
    case RetDevAuthenticationInfo =>
      simp only [TypeId.unmarshalBinary, Option.some.injEq] at h
      subst h
      rw [failO_ret]
      exact fail_devAuthInfo (by simp [codecText, Err.shortPacket, Err.unknownInfo, Err.invalidType, plainText, Err.checksum,
        Err.emptyPacket]) d s
    case SetFIDTokenValues =>
      rw [failO_mapVal _ _ s y h]
      exact failO_tokens hf (by simp [codecText]) d s
    case RetFIDTokenValueACKs =>
      rw [failO_mapVal _ _ s y h]
      exact failO_acks hf d s
    case RequestApplicationLaunch =>
      simp only [TypeId.unmarshalBinary, Option.some.injEq] at h
      subst h
      refine ⟨?_, fun h' => h'.elim⟩
      rintro ⟨e, he, _⟩
      cases hu : unmarshalAppLaunch d with
      | panic => rw [hu] at he; simp at he
      | ret x => rw [hu] at he; simp at he
    all_goals simp [TypeId.unmarshalBinary] at h
  | ext t =>
    cases t
    case ReturnIndexedPlayingTrackInfo =>
      simp only [TypeId.unmarshalBinary, Option.some.injEq] at h
      subst h
      rw [failO_ret]
      exact fail_extInfo hf d s
    case RetArtworkFormats =>
      rw [failO_mapVal _ _ s y h, failO_ret]
      exact fail_artworks hf _ d (Nat.le_refl _) s
    case ReturnIndexedPlayingTrackTitle => exact ⟨fun h' => absurd h' (failO_okVal s h), fun h' => h'.elim⟩
    case ReturnIndexedPlayingTrackArtistName => exact ⟨fun h' => absurd h' (failO_okVal s h), fun h' => h'.elim⟩
    case ReturnIndexedPlayingTrackAlbumName => exact ⟨fun h' => absurd h' (failO_okVal s h), fun h' => h'.elim⟩
    all_goals simp [TypeId.unmarshalBinary] at h
  | disp t =>
    cases t
    case RetiPodStateInfo =>
      simp only [TypeId.unmarshalBinary, Option.some.injEq] at h
      subst h
      rw [failO_ret]
      exact fail_dispState hf (by simp [codecText]) d s
    case RetIndexedPlayingTrackInfo =>
      simp only [TypeId.unmarshalBinary, Option.some.injEq] at h
      subst h
      rw [failO_ret]
      exact fail_dispTrack lib hf d s (by simp [codecText]) (by simp [codecText, Err.invalidType, Err.unknownInfo])
    all_goals simp [TypeId.unmarshalBinary] at h
  | aud t =>
    cases t
    case RetAccSampleRateCaps => exact ⟨fun h' => absurd h' (failO_okVal s h), fun h' => h'.elim⟩
    all_goals simp [TypeId.unmarshalBinary] at h
  | sim t =>
    have hk : ∀ t, codecText lib t d Err.invalidData = ascii "invalid data" := by
      intro t; simp [codecText, Err.invalidData, Err.unknownInfo, Err.invalidType, plainText, Err.checksum, Err.emptyPacket,
        Err.shortPacket, Err.unknownToken, Err.unknownAck]
    cases t
    case ContextButtonStatus => rw [failO_mapVal _ _ s y h, failO_ret]; exact fail_buttons (hk _) d s
    case VideoButtonStatus => rw [failO_mapVal _ _ s y h, failO_ret]; exact fail_buttons (hk _) d s
    case AudioButtonStatus => rw [failO_mapVal _ _ s y h, failO_ret]; exact fail_buttons (hk _) d s
    all_goals simp [TypeId.unmarshalBinary] at h

/-- The text about the body. -/
theorem bodyText_iff (lib : BinTexts) (t : TypeId) (d x : Bytes) :
    bodyText lib t d = .ret (some x) ↔ BodyFails lib t d x := by
  have hown := unmarshalBinary_own t d
  rw [bodyText]
  cases hu : t.unmarshalBinary d with
  | some y =>
    rw [hu] at hown
    have hin : t ∈ ownDecoder := hown.1 rfl
    simp only
    have key : (∃ s, FailO (codecText lib t d) y s ∧ x = ascii "ipod.Command unmarshal: BinaryUnmarshaler: " ++ s) ↔
        (y >>= fun v => match v with
          | .error e => .ret (some (ascii "ipod.Command unmarshal: BinaryUnmarshaler: " ++ codecText lib t d e))
          | .ok _ => Out.ret none) = .ret (some x) := by
      cases y with
      | panic => simp [FailO]
      | ret v =>
        cases v with
        | ok v => simp [FailO]
        | error e =>
          simp only [failO_ret, fail_error, Out.bind_ret, Out.ret.injEq, Option.some.injEq]
          constructor
          · rintro ⟨_, rfl, rfl⟩; rfl
          · rintro rfl; exact ⟨_, rfl, rfl⟩
    refine key.symm.trans ?_
    constructor
    · rintro ⟨s, h1, rfl⟩
      exact .own hin ((failO_codec lib t d s y hu).1 h1)
    · intro h
      cases h with
      | own _ h => exact ⟨_, (failO_codec lib t d _ y hu).2 h, rfl⟩
      | short h => exact absurd hin h
      | unsized h => exact absurd hin h
  | none =>
    rw [hu] at hown
    have hout : t ∉ ownDecoder := fun h => absurd (hown.2 h) (by simp)
    simp only
    cases hs : structSize t.schema with
    | none =>
      have hns : ∀ n, ¬ FixedSize t.schema n := by
        intro n hn
        rw [← structSize_iff, hs] at hn
        cases hn
      rw [binRead_none hs]
      simp only [structText, if_true, Out.ret.injEq, Option.some.injEq]
      constructor
      · rintro rfl; exact .unsized hout hns
      · intro h
        cases h with
        | own h => exact absurd h hout
        | short _ h => exact absurd h (hns _)
        | unsized => rfl
    | some n =>
      have hfix := (structSize_iff _ _).1 hs
      have huniq : ∀ m, FixedSize t.schema m → m = n := by
        intro m hm
        rw [← structSize_iff, hs] at hm
        cases hm; rfl
      have key : (∃ s, Fail (structText lib t) (binRead t.schema d).1 s ∧
          x = ascii "ipod.Command unmarshal: binary.Read: " ++ s) ↔
          (match (binRead t.schema d).1 with
          | .error e => Out.ret (some (ascii "ipod.Command unmarshal: binary.Read: " ++ structText lib t e))
          | .ok _ => Out.ret none) = .ret (some x) := by
        cases (binRead t.schema d).1 with
        | ok v => simp [fail_ok]
        | error e =>
          simp only [fail_error, Out.ret.injEq, Option.some.injEq]
          constructor
          · rintro ⟨_, rfl, rfl⟩; rfl
          · rintro rfl; exact ⟨_, rfl, rfl⟩
      refine key.symm.trans ?_
      constructor
      · rintro ⟨s, h1, rfl⟩
        exact .short hout hfix ((fail_binRead (structText_io lib t) hs d s).1 h1)
      · intro h
        cases h with
        | own h => exact absurd h hout
        | short _ h1 h2 =>
          have := huniq _ h1
          subst this
          exact ⟨_, (fail_binRead (structText_io lib t) hs d _).2 h2, rfl⟩
        | unsized _ h => exact absurd hfix (h n)

/-- There is a text exactly when there is an error. -/
theorem bodyText_decode (lib : BinTexts) (t : TypeId) (d : Bytes) :
    (decodePayload t d = .panic ↔ bodyText lib t d = .panic) ∧
    ((∃ v, decodePayload t d = .ret (.ok v)) ↔ bodyText lib t d = .ret none) := by
  rw [bodyText, decodePayload]
  cases t.unmarshalBinary d with
  | some y =>
    cases y with
    | panic => simp
    | ret v => cases v <;> simp
  | none => cases (binRead t.schema d).1 <;> simp

end Ipod
