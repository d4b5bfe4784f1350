import Verif.Lemmas.Lingo
import Verif.Spec.Messages
import Verif.Model.Serde

namespace Ipod
open Go

/-! ### reading back what was written -/

theorem binWrite_eq {fs : List FTy} {n : Nat} (h : structSize fs = some n) (v : SVal fs) :
    binWrite fs v = .ok (encStruct fs v) := by simp [binWrite, h]

theorem binRead_enc' {fs : List FTy} {n : Nat} (h : structSize fs = some n) (v : SVal fs) :
    binRead fs (encStruct fs v) = (.ok v, []) := by
  have := binRead_encStruct h v []
  simpa using this

theorem readOrZero_enc {f : FTy} {n : Nat} (h : f.size = some n) (z v : f.denote) (rest : Bytes) :
    readOrZero f z (f.enc v ++ rest) = (v, rest) := by
  have hs : structSize [f] = some n := by simp [structSize, h]
  have := binRead_encStruct hs (v, ()) rest
  simp only [encStruct, List.append_nil] at this
  simp [readOrZero, this]

theorem readOrZero_u8_cons (z x : UInt8) (r : Bytes) : readOrZero .u8 z (x :: r) = (x, r) :=
  readOrZero_enc (f := .u8) rfl z x r

theorem readAs_enc {α : Type} {fs : List FTy} {n : Nat} (h : structSize fs = some n) (v : SVal fs)
    (f : SVal fs → α) : readAs fs (encStruct fs v) f = .ok (f v) := by
  simp [readAs, binRead_enc' h]

theorem tokenRead_enc {fs : List FTy} {n : Nat} (h : structSize fs = some n) (v : SVal fs)
    (f : SVal fs → FIDToken) : tokenRead fs (encStruct fs v) f = .ret (.ok (f v)) := by
  simp [tokenRead, binRead_enc' h]

theorem binRead_2u8 (a b : UInt8) (r : Bytes) : binRead [.u8, .u8] (a :: b :: r) = (.ok (a, b, ()), r) := by
  have := binRead_encStruct (fs := [.u8, .u8]) (n := 2) rfl (a, b, ()) r
  simpa [encStruct, FTy.enc] using this

/-! ### tokens -/

theorem unmarshalIdentify_enc (l : Bytes) (o d : UInt32) (h : l.length ≤ 255) :
    unmarshalIdentify (marshalIdentify l o d) = .ok (.identify l o d) := by
  have hn : (UInt8.ofNat l.length).toNat = l.length := by simp; omega
  simp only [marshalIdentify, List.cons_append, List.nil_append, List.append_assoc, unmarshalIdentify, hn]
  rw [if_neg (by simp only [List.length_append]; omega), List.take_left, List.drop_left]
  simp only
  rw [readOrZero_enc (f := .u32) rfl]
  have := readOrZero_enc (f := .u32) rfl 0 d []
  simp only [List.append_nil] at this
  simp only [this]

theorem unmarshalToken_raw (id : TokenID) (h : ¬ Spec.knownTokenID id) (b : Bytes) :
    unmarshalToken id b = .ret (.ok (.raw b)) := by
  obtain ⟨ty, sub⟩ := id
  simp only [Spec.knownTokenID, not_or, not_and] at h
  simp only [unmarshalToken]
  by_cases h0 : ty = 0
  · have h2 := h.2 h0
    rw [if_pos h0]
    have key : ∀ k : Nat, k ∈ [0, 1, 2, 3, 4, 5, 7, 8] → sub.toNat ≠ k := by
      intro k hk he
      apply h2
      have hs : sub = UInt8.ofNat k := by rw [← he]; simp
      rw [hs]
      simp only [List.mem_cons, List.not_mem_nil, or_false] at hk
      rcases hk with rfl | rfl | rfl | rfl | rfl | rfl | rfl | rfl <;> decide
    simp only [List.mem_cons, List.not_mem_nil, or_false, forall_eq_or_imp, forall_eq] at key
    obtain ⟨k0, k1, k2, k3, k4, k5, k7, k8⟩ := key
    split <;> first | omega | rfl
  · rw [if_neg h0, if_neg h.1]

/-- Encoding of a token that is meant to survive, and its decoding. -/
theorem token_roundtrip (v : FIDTokenValue) (h : Spec.TokenOK v) :
    ∃ b, marshalTokenValue v = .ok b ∧ b.length ≤ 255 ∧ unmarshalTokenValue b = .ret (.ok v) := by
  have key : ∃ body, marshalToken v.token = .ok body ∧ body.length ≤ 253 ∧
      unmarshalToken v.id body = .ret (.ok v.token) := by
    obtain ⟨id, tok⟩ := v
    cases tok with
    | nil => exact absurd h (by simp [Spec.TokenOK])
    | accInfo => exact absurd h (by simp [Spec.TokenOK])
    | eaProtocol => exact absurd h (by simp [Spec.TokenOK])
    | identify l o d =>
      obtain ⟨rfl, hl⟩ : id = ⟨0, 0⟩ ∧ l.length ≤ 244 := h
      refine ⟨_, rfl, ?_, ?_⟩
      · simp only [marshalIdentify, List.length_append, List.length_cons, List.length_nil, FTy.enc, beEnc_length]
        omega
      · show Out.ret (unmarshalIdentify _) = _
        rw [unmarshalIdentify_enc _ _ _ (by omega)]
    | accCaps m =>
      obtain rfl : id = ⟨0, 1⟩ := h
      refine ⟨encStruct [.u64] (m, ()), rfl, by rw [encStruct_length (n := 8) rfl]; omega, ?_⟩
      have := readOrZero_enc (f := .u64) rfl 0 m []
      simp only [encStruct]
      show Out.ret (Except.ok (FIDToken.accCaps (readOrZero .u64 0 (FTy.enc .u64 m ++ [])).1)) = _
      rw [this]
    | ipodPref a b c =>
      obtain rfl : id = ⟨0, 3⟩ := h
      exact ⟨encStruct [.u8, .u8, .u8] (a, b, c, ()), rfl, by rw [encStruct_length (n := 3) rfl]; omega,
        tokenRead_enc (fs := [.u8, .u8, .u8]) (n := 3) rfl (a, b, c, ()) fun (a, b, c, _) => .ipodPref a b c⟩
    | bundleSeed s =>
      obtain rfl : id = ⟨0, 5⟩ := h
      exact ⟨encStruct [.arr 11] (s, ()), rfl, by rw [encStruct_length (n := 11) rfl]; omega,
        tokenRead_enc (fs := [.arr 11]) (n := 11) rfl (s, ()) fun (s, _) => .bundleSeed s⟩
    | screenInfo a b c d e f g i =>
      obtain rfl : id = ⟨0, 7⟩ := h
      exact ⟨encStruct screenInfoSchema (a, b, c, d, e, f, g, i, ()), rfl,
        by rw [encStruct_length (n := 14) rfl]; omega,
        tokenRead_enc (fs := screenInfoSchema) (n := 14) rfl (a, b, c, d, e, f, g, i, ())
          fun (a, b, c, d, e, f, g, h, _) => .screenInfo a b c d e f g h⟩
    | eaMetadata a b =>
      obtain rfl : id = ⟨0, 8⟩ := h
      exact ⟨encStruct [.u8, .u8] (a, b, ()), rfl, by rw [encStruct_length (n := 2) rfl]; omega,
        tokenRead_enc (fs := [.u8, .u8]) (n := 2) rfl (a, b, ()) fun (a, b, _) => .eaMetadata a b⟩
    | micCaps m =>
      have h' : id.fidType = 1 := h
      refine ⟨encStruct [.u32] (m, ()), rfl, by rw [encStruct_length (n := 4) rfl]; omega, ?_⟩
      simp only [unmarshalToken, h']
      exact tokenRead_enc (fs := [.u32]) (n := 4) rfl (m, ()) fun (m, _) => .micCaps m
    | raw b => exact ⟨b, rfl, h.2, unmarshalToken_raw _ h.1 _⟩
  obtain ⟨body, h1, h2, h3⟩ := key
  refine ⟨[v.id.fidType, v.id.fidSubtype] ++ body, ?_, ?_, ?_⟩
  · simp [marshalTokenValue, h1]
  · simp; omega
  · simp only [List.cons_append, List.nil_append, unmarshalTokenValue, binRead_2u8, h3, Out.bind_ret]

theorem ack_roundtrip (v : FIDTokenValueACK) (h : Spec.AckOK v) :
    ∃ b, marshalAck v = .ok b ∧ b.length ≤ 255 ∧ unmarshalAck b = .ret (.ok v) := by
  obtain ⟨id, ack⟩ := v
  obtain ⟨b, rfl, hb⟩ := h
  refine ⟨_, rfl, by simp; omega, ?_⟩
  simp [unmarshalAck, binRead_2u8]

/-- Length-delimited lists decode to themselves, whatever follows. -/
theorem list_roundtrip {α : Type} (enc : α → Except Err Bytes) (dec : Bytes → Out (Except Err α))
    (vs : List α)
    (h : ∀ v ∈ vs, ∃ b, enc v = .ok b ∧ b.length ≤ 255 ∧ dec b = .ret (.ok v)) :
    ∃ bs, marshalList enc vs = .ok bs ∧
      ∀ rest, unmarshalList dec vs.length (bs ++ rest) = .ret (.ok vs) := by
  induction vs with
  | nil => exact ⟨[], rfl, fun _ => rfl⟩
  | cons v vs ih =>
    obtain ⟨b, h1, h2, h3⟩ := h v (by simp)
    obtain ⟨bs, h4, h5⟩ := ih fun w hw => h w (by simp [hw])
    refine ⟨[UInt8.ofNat b.length] ++ b ++ bs, by simp [marshalList, h1, h4], ?_⟩
    intro rest
    have hn : (UInt8.ofNat b.length).toNat = b.length := by simp; omega
    simp only [List.length_cons, List.cons_append, List.nil_append, List.append_assoc, unmarshalList, hn]
    rw [List.take_left, List.drop_left, h3]
    simp only [Out.bind_ret]
    rw [h5]
    rfl

theorem tokens_roundtrip (vs : List FIDTokenValue) (hl : vs.length ≤ 255) (h : ∀ v ∈ vs, Spec.TokenOK v) :
    ∃ b, marshalTokens vs = .ok b ∧ ∀ rest, unmarshalTokens (b ++ rest) = .ret (.ok vs) := by
  obtain ⟨bs, h1, h2⟩ := list_roundtrip marshalTokenValue unmarshalTokenValue vs
    fun v hv => token_roundtrip v (h v hv)
  refine ⟨[UInt8.ofNat vs.length] ++ bs, by simp [marshalTokens, h1], ?_⟩
  intro rest
  have hn : (UInt8.ofNat vs.length).toNat = vs.length := by simp; omega
  simp only [List.cons_append, List.nil_append, unmarshalTokens, hn]
  exact h2 rest

theorem acks_roundtrip (vs : List FIDTokenValueACK) (hl : vs.length ≤ 255) (h : ∀ v ∈ vs, Spec.AckOK v) :
    ∃ b, marshalAcks vs = .ok b ∧ ∀ rest, unmarshalAcks (b ++ rest) = .ret (.ok vs) := by
  obtain ⟨bs, h1, h2⟩ := list_roundtrip marshalAck unmarshalAck vs
    fun v hv => ack_roundtrip v (h v hv)
  refine ⟨[UInt8.ofNat vs.length] ++ bs, by simp [marshalAcks, h1], ?_⟩
  intro rest
  have hn : (UInt8.ofNat vs.length).toNat = vs.length := by simp; omega
  simp only [List.cons_append, List.nil_append, unmarshalAcks, hn]
  exact h2 rest

/-! ### extended remote -/

theorem extInfo_roundtrip (ty : UInt8) (i : ExtInfo) (h : Spec.ExtInfoOK ty i) :
    ∃ b, marshalExtInfo ty i = .ok b ∧ unmarshalExtInfo b = .ok (ty, i, ()) := by
  cases i with
  | emptyVal => exact absurd h (by simp [Spec.ExtInfoOK])
  | bytes => exact absurd h (by simp [Spec.ExtInfoOK])
  | caps a b c =>
    obtain rfl : ty = 0 := h
    refine ⟨[0] ++ encStruct [.u32, .u32, .u16] (a, b, c, ()), rfl, ?_⟩
    simp only [List.cons_append, List.nil_append, unmarshalExtInfo, binRead_u8_cons]
    rw [binRead_enc' (n := 10) rfl]
    rfl
  | longText a b c =>
    have h' : ty = 3 ∨ ty = 4 := h
    refine ⟨[ty] ++ encStruct [.u8, .u16, .u8] (a, b, c, ()), rfl, ?_⟩
    simp only [List.cons_append, List.nil_append, unmarshalExtInfo, binRead_u8_cons]
    rw [if_neg (by rcases h' with rfl | rfl <;> decide), if_pos h', binRead_enc' (n := 4) rfl]
  | emptyPtr =>
    obtain ⟨h0, h3, h4⟩ : ty ≠ 0 ∧ ty ≠ 3 ∧ ty ≠ 4 := h
    refine ⟨[ty] ++ [], rfl, ?_⟩
    simp only [List.cons_append, List.nil_append, unmarshalExtInfo, binRead_u8_cons]
    rw [if_neg h0, if_neg (by simp [h3, h4])]
    rfl

theorem unmarshalArtworks_cons (f : ArtworkFormat) (rest : Bytes) :
    unmarshalArtworks (encStruct artworkSchema f.toVal ++ rest) =
      match unmarshalArtworks rest with
      | .ok fs => .ok (f :: fs)
      | .error e => .error e := by
  have hl : (encStruct artworkSchema f.toVal).length = 7 := encStruct_length (n := 7) rfl _
  rw [unmarshalArtworks]
  split
  · rename_i h; rw [binRead_encStruct (n := 7) rfl] at h; simp at h
  · rename_i h; rw [binRead_encStruct (n := 7) rfl] at h; simp at h
  · rename_i v r h
    rw [binRead_encStruct (n := 7) rfl] at h
    simp only [Prod.mk.injEq, Except.ok.injEq] at h
    obtain ⟨rfl, rfl⟩ := h
    rw [dif_pos (by simp only [List.length_append, hl]; omega)]
    rfl

theorem unmarshalArtworks_nil : unmarshalArtworks [] = .ok [] := by
  rw [unmarshalArtworks]
  rfl

theorem artworks_roundtrip (fs : List ArtworkFormat) : unmarshalArtworks (marshalArtworks fs) = .ok fs := by
  induction fs with
  | nil => exact unmarshalArtworks_nil
  | cons f fs ih =>
    have : marshalArtworks (f :: fs) = encStruct artworkSchema f.toVal ++ marshalArtworks fs := by
      simp [marshalArtworks]
    rw [this, unmarshalArtworks_cons, ih]

/-- Every complete record sequence is accepted, an incomplete trailing record is an error. -/
theorem unmarshalArtworks_iff (data : Bytes) :
    (∃ fs, unmarshalArtworks data = .ok fs ∧ 7 * fs.length = data.length) ∨
      (unmarshalArtworks data = .error .unexpectedEOF ∧ data.length % 7 ≠ 0) := by
  induction hn : data.length using Nat.strongRecOn generalizing data with
  | ind n ih =>
    subst hn
    by_cases h7 : 7 ≤ data.length
    · obtain ⟨v, hv, _⟩ := binRead_long (fs := artworkSchema) (n := 7) rfl h7
      have hrec : unmarshalArtworks data =
          match unmarshalArtworks (data.drop 7) with
          | .ok fs => .ok (ArtworkFormat.ofVal v :: fs)
          | .error e => .error e := by
        rw [unmarshalArtworks]
        split
        · rename_i h; rw [hv] at h; simp at h
        · rename_i h; rw [hv] at h; simp at h
        · rename_i v' r h
          rw [hv] at h
          simp only [Prod.mk.injEq, Except.ok.injEq] at h
          obtain ⟨rfl, rfl⟩ := h
          rw [dif_pos (by simp; omega)]
          rfl
      rcases ih (data.drop 7).length (by simp; omega) (data.drop 7) rfl with ⟨fs, h1, h2⟩ | ⟨h1, h2⟩
      · left
        refine ⟨ArtworkFormat.ofVal v :: fs, by rw [hrec, h1], ?_⟩
        simp only [List.length_cons, List.length_drop] at h2 ⊢
        omega
      · right
        refine ⟨by rw [hrec, h1], ?_⟩
        simp only [List.length_drop] at h2
        omega
    · have hs := binRead_short (fs := artworkSchema) (n := 7) rfl (r := data) (by omega)
      by_cases h0 : data = []
      · left
        subst h0
        exact ⟨[], unmarshalArtworks_nil, rfl⟩
      · right
        have hpos : data.length ≠ 0 := by simpa using h0
        rw [if_neg hpos] at hs
        refine ⟨?_, by omega⟩
        rw [unmarshalArtworks]
        split
        · rename_i h; rw [hs] at h; simp at h
        · rename_i h; rw [hs] at h; simp only [Prod.mk.injEq, Except.error.injEq] at h; rw [← h.1]
        · rename_i h; rw [hs] at h; simp at h

/-! ### audio -/

theorem marshalRates_cons (r : UInt32) (rs : List UInt32) :
    marshalRates (r :: rs) = FTy.enc .u32 r ++ marshalRates rs := by simp [marshalRates]

theorem marshalRates_length (rs : List UInt32) : (marshalRates rs).length = 4 * rs.length := by
  induction rs with
  | nil => rfl
  | cons r rs ih => simp [marshalRates_cons, FTy.enc, ih]; omega

theorem readRates_enc (rs : List UInt32) (rest : Bytes) :
    readRates rs.length (marshalRates rs ++ rest) = rs := by
  induction rs with
  | nil => rfl
  | cons r rs ih =>
    have h1 : (FTy.enc .u32 r).length = 4 := FTy.enc_length (f := .u32) rfl r
    have h2 : FTy.dec .u32 (FTy.enc .u32 r) = some r := FTy.dec_enc (f := .u32) rfl r
    rw [marshalRates_cons, List.append_assoc, List.length_cons, readRates]
    rw [← h1, List.take_left, List.drop_left, ih]
    congr 1
    simp only [FTy.dec, h1, if_true, Option.some.injEq] at h2
    exact h2

theorem rates_roundtrip (rs : List UInt32) (rest : Bytes) (h : rest.length < 4) :
    unmarshalRates (marshalRates rs ++ rest) = rs := by
  have : (marshalRates rs ++ rest).length / 4 = rs.length := by
    simp only [List.length_append, marshalRates_length]; omega
  rw [unmarshalRates, this, readRates_enc]

/-! ### buttons -/

theorem leVal_append (a b : Bytes) : Spec.leVal (a ++ b) = Spec.leVal a + 256 ^ a.length * Spec.leVal b := by
  induction a with
  | nil => simp [Spec.leVal]
  | cons x xs ih => simp only [List.cons_append, Spec.leVal, ih, List.length_cons, Nat.pow_succ]; grind

theorem leVal_eq (b : Bytes) : Spec.leVal b = beDec b.reverse := by
  induction b with
  | nil => rfl
  | cons x xs ih =>
    have : beDec (xs.reverse ++ [x]) = beDec xs.reverse * 256 + x.toNat := by
      simp only [beDec, List.foldl_append, List.foldl_cons, List.foldl_nil]
    rw [Spec.leVal, List.reverse_cons, this, ih]
    omega

theorem leVal_lt (b : Bytes) : Spec.leVal b < 256 ^ b.length := by
  rw [leVal_eq]
  have := beDec_lt b.reverse
  simpa using this

theorem leVal_replicate (n : Nat) : Spec.leVal (List.replicate n 0) = 0 := by
  induction n with
  | zero => rfl
  | succ n ih => simp [List.replicate_succ, Spec.leVal, ih]

theorem leVal_leEnc4 (x : UInt32) : Spec.leVal (leEnc4 x) = x.toNat := by
  rw [leVal_eq, leEnc4, List.reverse_reverse, beDec_beEnc]
  have := x.toNat_lt
  omega

theorem leEnc4_length (x : UInt32) : (leEnc4 x).length = 4 := by simp [leEnc4]

/-- Number of bytes used for a mask. -/
def buttonLen (x : UInt32) : Nat := if (bitsLen32 x + 7) / 8 = 0 then 1 else (bitsLen32 x + 7) / 8

theorem bitsLen32_spec (x : UInt32) (k : Nat) : x.toNat < 2 ^ k ↔ bitsLen32 x ≤ k := by
  rw [bitsLen32]
  by_cases h : x = 0
  · subst h; simp; exact Nat.pow_pos (by omega)
  · have h' : x.toNat ≠ 0 := fun e => h (UInt32.toNat_inj.1 (by simpa using e))
    rw [if_neg h, ← Nat.log2_lt h']
    omega

theorem buttonLen_spec (x : UInt32) (k : Nat) (hk : 1 ≤ k) : x.toNat < 256 ^ k ↔ buttonLen x ≤ k := by
  have e : (256 : Nat) ^ k = 2 ^ (8 * k) := by rw [Nat.pow_mul]
  rw [e, bitsLen32_spec, buttonLen]
  split <;> omega

theorem buttonLen_le (x : UInt32) : 1 ≤ buttonLen x ∧ buttonLen x ≤ 4 := by
  constructor
  · rw [buttonLen]; split <;> omega
  · rw [← buttonLen_spec x 4 (by omega)]
    exact x.toNat_lt

theorem marshalButtons_eq (x : UInt32) : marshalButtons x = (leEnc4 x).take (buttonLen x) := rfl

theorem marshalButtons_length (x : UInt32) : (marshalButtons x).length = buttonLen x := by
  have := (buttonLen_le x).2
  rw [marshalButtons_eq, List.length_take, leEnc4_length]; omega

theorem leVal_marshalButtons (x : UInt32) : Spec.leVal (marshalButtons x) = x.toNat := by
  have hx := leVal_leEnc4 x
  have hsplit := leVal_append ((leEnc4 x).take (buttonLen x)) ((leEnc4 x).drop (buttonLen x))
  rw [List.take_append_drop, hx, ← marshalButtons_eq, marshalButtons_length] at hsplit
  have hlt := (buttonLen_spec x (buttonLen x) (buttonLen_le x).1).2 (Nat.le_refl _)
  have : Spec.leVal (List.drop (buttonLen x) (leEnc4 x)) = 0 := by
    rcases Nat.eq_zero_or_pos (Spec.leVal (List.drop (buttonLen x) (leEnc4 x))) with h | h
    · exact h
    · exfalso
      have := Nat.mul_le_mul_left (256 ^ buttonLen x) h
      omega
  rw [this] at hsplit
  omega

theorem unmarshalButtons_eq (d : Bytes) :
    unmarshalButtons d = if d = [] then .error Err.invalidData else .ok (UInt32.ofNat (Spec.leVal (d.take 4))) := by
  rw [unmarshalButtons]
  by_cases h : d = []
  · simp [h]
  · have : d.length ≠ 0 := by simpa using h
    rw [if_neg (by omega), if_neg h, ← leVal_eq, leVal_append, leVal_replicate]
    simp

theorem buttons_roundtrip (x : UInt32) : unmarshalButtons (marshalButtons x) = .ok x := by
  have h1 := marshalButtons_length x
  have h2 := buttonLen_le x
  have hne : marshalButtons x ≠ [] := by
    intro e; rw [e] at h1; simp at h1; omega
  rw [unmarshalButtons_eq, if_neg hne, List.take_of_length_le (by omega), leVal_marshalButtons]
  simp

/-! ### display remote -/

theorem dispState_roundtrip (ty : UInt8) (i : DispState) (h : Spec.DispStateOK ty i) :
    unmarshalDispState (marshalDispState ty i) = .ok (ty, i, ()) := by
  cases i <;> simp only [Spec.DispStateOK] at h <;> (try subst h) <;>
    simp only [marshalDispState, DispState.encode, List.cons_append, List.nil_append, unmarshalDispState,
      readOrZero_u8_cons]
  case trackPositionMs v => exact readAs_enc (fs := [.u32]) (n := 4) rfl (v, ()) _
  case trackIndex v => exact readAs_enc (fs := [.u32]) (n := 4) rfl (v, ()) _
  case chapterIndex a b c => exact readAs_enc (fs := [.u32, .u16, .u16]) (n := 8) rfl (a, b, c, ()) _
  case playStatus v => exact readAs_enc (fs := [.u8]) (n := 1) rfl (v, ()) _
  case volume a b => exact readAs_enc (fs := [.u8, .u8]) (n := 2) rfl (a, b, ()) _
  case power a b => exact readAs_enc (fs := [.u8, .u8]) (n := 2) rfl (a, b, ()) _
  case equalizer v => exact readAs_enc (fs := [.u32]) (n := 4) rfl (v, ()) _
  case shuffle v => exact readAs_enc (fs := [.u8]) (n := 1) rfl (v, ()) _
  case «repeat» v => exact readAs_enc (fs := [.u8]) (n := 1) rfl (v, ()) _
  case dateTime a b c d e =>
    exact readAs_enc (fs := [.u16, .u8, .u8, .u8, .u8]) (n := 6) rfl (a, b, c, d, e, ()) _
  case backlight v => exact readAs_enc (fs := [.u8]) (n := 1) rfl (v, ()) _
  case holdSwitch v => exact readAs_enc (fs := [.u8]) (n := 1) rfl (v, ()) _
  case soundCheck v => exact readAs_enc (fs := [.u8]) (n := 1) rfl (v, ()) _
  case audiobookSpeed v => exact readAs_enc (fs := [.u8]) (n := 1) rfl (v, ()) _
  case trackPositionSec v => exact readAs_enc (fs := [.u16]) (n := 2) rfl (v, ()) _
  case volume2 a b c => exact readAs_enc (fs := [.u8, .u8, .u8]) (n := 3) rfl (a, b, c, ()) _

theorem dispTrack_roundtrip (ty : UInt8) (i : DispTrack) (h : Spec.DispTrackOK ty i)
    (hf : Spec.DispTrackFixed i) : unmarshalDispTrack (marshalDispTrack ty i) = .ok (ty, i, ()) := by
  cases i <;> simp only [Spec.DispTrackFixed] at hf <;> simp only [Spec.DispTrackOK] at h <;> subst h <;>
    simp only [marshalDispTrack, DispTrack.encode, List.cons_append, List.nil_append, unmarshalDispTrack,
      readOrZero_u8_cons]
  case caps a b c => exact readAs_enc (fs := [.u32, .u32, .u16]) (n := 10) rfl (a, b, c, ()) _
  case artworkCount v => exact readAs_enc (fs := [.u8]) (n := 1) rfl (v, ()) _

/-- Track infos with text are sent without their text and cannot be decoded. -/
theorem dispTrack_text (ty : UInt8) (i : DispTrack) (h : Spec.DispTrackOK ty i)
    (hf : ¬ Spec.DispTrackFixed i) :
    marshalDispTrack ty i = [ty] ∧ ∀ d, unmarshalDispTrack (ty :: d) = .error Err.invalidType := by
  cases i <;> simp only [Spec.DispTrackFixed, not_true, not_false_eq_true] at hf <;>
    simp only [Spec.DispTrackOK] at h <;> subst h <;> refine ⟨rfl, fun d => ?_⟩ <;>
    simp only [unmarshalDispTrack, readOrZero_u8_cons] <;> rfl

/-! ### all codecs -/

/-- Types with fixed size have no codec of their own. -/
theorem fixed_no_codec {t : TypeId} {n : Nat} (h : t.size = some n) (v : t.Val) (d : Bytes) :
    t.marshalBinary v = none ∧ t.unmarshalBinary d = none := by
  cases t with
  | gen g => cases g <;> first | exact ⟨rfl, rfl⟩ | exact absurd h (by decide +revert)
  | ext g => cases g <;> first | exact ⟨rfl, rfl⟩ | exact absurd h (by decide +revert)
  | disp g => cases g <;> first | exact ⟨rfl, rfl⟩ | exact absurd h (by decide +revert)
  | aud g => cases g <;> first | exact ⟨rfl, rfl⟩ | exact absurd h (by decide +revert)
  | sim g => cases g <;> first | exact ⟨rfl, rfl⟩ | exact absurd h (by decide +revert)

end Ipod
