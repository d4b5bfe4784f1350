import Verif.Spec.Encode
import Verif.Lemmas.Decode

namespace Ipod
open Go Spec

theorem len_iff (k : Nat) (n : UInt8) : n.toNat = k % 256 ↔ n = UInt8.ofNat k := by
  rw [← UInt8.toNat_inj]; simp

theorem binWrite_iff (fs : List FTy) (v : SVal fs) (b : Bytes) : binWrite fs v = .ok b ↔ StructBytes fs v b := by
  cases hs : structSize fs with
  | some n =>
    rw [binWrite_eq hs]
    constructor
    · intro h; cases h; exact structBytes_enc hs v
    · intro h; rw [structBytes_unique h (structBytes_enc hs v)]
  | none =>
    constructor
    · intro h; simp [binWrite, hs] at h
    · intro h
      exfalso
      have : ∀ {fs : List FTy} {v : SVal fs} {b : Bytes}, StructBytes fs v b → structSize fs ≠ none := by
        intro fs v b h
        induction h with
        | nil => simp [structSize]
        | @cons f fs v vs b bs h1 h2 ih =>
          cases hn : structSize fs with
          | none => exact absurd hn ih
          | some n =>
            cases f <;> simp only [FieldBytes] at h1 <;> simp [structSize, FTy.size, hn]
      exact this h hs

theorem structBytes_nil (b : Bytes) : StructBytes [] () b ↔ b = [] :=
  ⟨fun h => by cases h; rfl, fun h => by subst h; exact .nil⟩

theorem structBytes_cons {f : FTy} {fs : List FTy} {v : f.denote} {vs : SVal fs} {b : Bytes} :
    StructBytes (f :: fs) (v, vs) b ↔ ∃ b1 b2, b = b1 ++ b2 ∧ FieldBytes f v b1 ∧ StructBytes fs vs b2 := by
  constructor
  · intro h; cases h with | cons h1 h2 => exact ⟨_, _, rfl, h1, h2⟩
  · rintro ⟨_, _, rfl, h1, h2⟩; exact .cons h1 h2

theorem structBytes_one {f : FTy} {v : f.denote} {b : Bytes} : StructBytes [f] (v, ()) b ↔ FieldBytes f v b := by
  rw [structBytes_cons]
  constructor
  · rintro ⟨b1, b2, rfl, h1, h2⟩; cases h2; simpa using h1
  · intro h; exact ⟨b, [], by simp, h, .nil⟩

theorem structBytes_u8 {fs : List FTy} {v : UInt8} {vs : SVal fs} {b : Bytes} :
    StructBytes (.u8 :: fs) (v, vs) b ↔ ∃ r, b = v :: r ∧ StructBytes fs vs r := by
  rw [structBytes_cons]
  constructor
  · rintro ⟨b1, b2, rfl, h1, h2⟩
    have := (isBE1 v b1).1 h1
    subst this
    exact ⟨b2, rfl, h2⟩
  · rintro ⟨r, rfl, h⟩; exact ⟨[v], r, rfl, (isBE1 v [v]).2 rfl, h⟩

theorem structBytes_b1 (x : UInt8) (b : Bytes) : StructBytes [.u8] (x, ()) b ↔ b = [x] := by
  rw [structBytes_u8]
  constructor
  · rintro ⟨_, rfl, h⟩; rw [(structBytes_nil _).1 h]
  · rintro rfl; exact ⟨_, rfl, .nil⟩

theorem structBytes_b2 (x y : UInt8) (b : Bytes) : StructBytes [.u8, .u8] (x, y, ()) b ↔ b = [x, y] := by
  rw [structBytes_u8]
  constructor
  · rintro ⟨_, rfl, h⟩; rw [(structBytes_b1 _ _).1 h]
  · rintro rfl; exact ⟨_, rfl, (structBytes_b1 _ _).2 rfl⟩

theorem structBytes_b3 (x y z : UInt8) (b : Bytes) :
    StructBytes [.u8, .u8, .u8] (x, y, z, ()) b ↔ b = [x, y, z] := by
  rw [structBytes_u8]
  constructor
  · rintro ⟨_, rfl, h⟩; rw [(structBytes_b2 _ _ _).1 h]
  · rintro rfl; exact ⟨_, rfl, (structBytes_b2 _ _ _).2 rfl⟩

theorem encU32_iff (v : UInt32) (b : Bytes) : IsBE 4 v.toNat b ↔ b = FTy.enc .u32 v :=
  ⟨fun h => fieldBytes_unique (f := .u32) h (fieldBytes_enc (f := .u32) rfl v), fun h => by subst h; exact fieldBytes_enc (f := .u32) rfl v⟩

theorem marshalToken_iff (t : FIDToken) (b : Bytes) :
    marshalToken t = .ok b ↔ TokenForm (fun k n => n.toNat = k % 256) t b := by
  cases t with
  | nil => simp only [marshalToken, reduceCtorEq, false_iff]; intro h; cases h
  | identify l o d =>
    simp only [marshalToken, Except.ok.injEq, marshalIdentify]
    constructor
    · rintro rfl
      have := TokenForm.identify (Len := fun k n => n.toNat = k % 256) (l := l) ((len_iff l.length _).2 rfl)
        ((encU32_iff o _).2 rfl) ((encU32_iff d _).2 rfl)
      simpa using this
    · intro h
      cases h with
      | identify h1 h2 h3 =>
        rw [len_iff] at h1
        rw [encU32_iff] at h2 h3
        subst h1 h2 h3
        simp
  | accCaps m =>
    rw [marshalToken, binWrite_iff, structBytes_one]
    exact ⟨fun h => .accCaps h, fun h => by cases h with | accCaps h => exact h⟩
  | accInfo _ _ => simp only [marshalToken, reduceCtorEq, false_iff]; intro h; cases h
  | ipodPref x y z =>
    rw [marshalToken, binWrite_iff]
    refine (structBytes_b3 _ _ _ _).trans ⟨?_, ?_⟩
    · rintro rfl; exact .ipodPref
    · intro h; cases h; rfl
  | eaProtocol _ _ => simp only [marshalToken, reduceCtorEq, false_iff]; intro h; cases h
  | bundleSeed s =>
    rw [marshalToken, binWrite_iff, structBytes_one]
    constructor
    · rintro ⟨_, rfl⟩; exact .bundleSeed
    · intro h; cases h; exact ⟨s.2, rfl⟩
  | screenInfo =>
    rw [marshalToken, binWrite_iff]
    exact ⟨fun h => .screenInfo h, fun h => by cases h with | screenInfo h => exact h⟩
  | eaMetadata x y =>
    rw [marshalToken, binWrite_iff]
    refine (structBytes_b2 _ _ _).trans ⟨?_, ?_⟩
    · rintro rfl; exact .eaMetadata
    · intro h; cases h; rfl
  | micCaps m =>
    rw [marshalToken, binWrite_iff, structBytes_one]
    exact ⟨fun h => .micCaps h, fun h => by cases h with | micCaps h => exact h⟩
  | raw d =>
    simp only [marshalToken, Except.ok.injEq]
    exact ⟨fun h => by subst h; exact .raw, fun h => by cases h; rfl⟩

theorem marshalTokenValue_iff (v : FIDTokenValue) (b : Bytes) :
    marshalTokenValue v = .ok b ↔ TokenValueForm (fun k n => n.toNat = k % 256) v b := by
  rw [marshalTokenValue, TokenValueForm]
  constructor
  · intro h
    split at h
    · rename_i x hx
      cases h
      exact ⟨x, (marshalToken_iff _ _).1 hx, rfl⟩
    · cases h
  · rintro ⟨body, h1, rfl⟩
    rw [(marshalToken_iff _ _).2 h1]
    rfl

theorem marshalAck_iff (v : FIDTokenValueACK) (b : Bytes) : marshalAck v = .ok b ↔ AckForm v b := by
  obtain ⟨id, a⟩ := v
  cases a with
  | none => simp [marshalAck, AckForm]
  | some x => simp [marshalAck, AckForm, eq_comm]

theorem marshalList_iff {α : Type} (enc : α → Except Err Bytes) (R : α → Bytes → Prop)
    (h : ∀ v b, enc v = .ok b ↔ R v b) (l : List α) (b : Bytes) :
    marshalList enc l = .ok b ↔ ElementsForm (fun k n => n.toNat = k % 256) R l b := by
  induction l generalizing b with
  | nil =>
    simp only [marshalList, Except.ok.injEq]
    exact ⟨fun h => by subst h; exact .nil, fun h => by cases h; rfl⟩
  | cons v vs ih =>
    rw [marshalList]
    constructor
    · intro h1
      split at h1
      · cases h1
      · rename_i x hx
        split at h1
        · cases h1
        · rename_i r hr
          cases h1
          have := ElementsForm.cons (Len := fun k n => n.toNat = k % 256) ((h _ _).1 hx)
            ((len_iff x.length _).2 rfl) ((ih _).1 hr)
          simpa using this
    · intro h1
      cases h1 with
      | cons h2 h3 h4 =>
        rw [len_iff] at h3
        rw [(h _ _).2 h2, (ih _).2 h4, h3]
        simp

theorem marshalTokens_iff (l : List FIDTokenValue) (b : Bytes) : marshalTokens l = .ok b ↔
    CountedForm (fun k n => n.toNat = k % 256) (TokenValueForm (fun k n => n.toNat = k % 256)) l b := by
  rw [marshalTokens, CountedForm]
  constructor
  · intro h
    split at h
    · cases h
    · rename_i x hx
      cases h
      exact ⟨_, x, rfl, (len_iff _ _).2 rfl, (marshalList_iff _ _ marshalTokenValue_iff _ _).1 hx⟩
  · rintro ⟨n, r, rfl, h1, h2⟩
    rw [(marshalList_iff _ _ marshalTokenValue_iff _ _).2 h2, (len_iff _ _).1 h1]
    rfl

theorem marshalAcks_iff (l : List FIDTokenValueACK) (b : Bytes) : marshalAcks l = .ok b ↔
    CountedForm (fun k n => n.toNat = k % 256) AckForm l b := by
  rw [marshalAcks, CountedForm]
  constructor
  · intro h
    split at h
    · cases h
    · rename_i x hx
      cases h
      exact ⟨_, x, rfl, (len_iff _ _).2 rfl, (marshalList_iff _ _ marshalAck_iff _ _).1 hx⟩
  · rintro ⟨n, r, rfl, h1, h2⟩
    rw [(marshalList_iff _ _ marshalAck_iff _ _).2 h2, (len_iff _ _).1 h1]
    rfl

theorem marshalExtInfo_iff (ty : UInt8) (i : ExtInfo) (b : Bytes) :
    marshalExtInfo ty i = .ok b ↔ ∃ r, ExtInfoForm i r ∧ b = ty :: r := by
  have key : ∀ (x : Except Err Bytes), (∀ r, x = .ok r ↔ ExtInfoForm i r) →
      ((match x with | .ok b => Except.ok ([ty] ++ b) | .error e => .error e : Except Err Bytes) = .ok b ↔
        ∃ r, ExtInfoForm i r ∧ b = ty :: r) := by
    intro x hx
    constructor
    · intro h
      split at h
      · rename_i r
        cases h
        exact ⟨r, (hx r).1 rfl, rfl⟩
      · cases h
    · rintro ⟨r, h, rfl⟩
      rw [(hx r).2 h]
      rfl
  unfold marshalExtInfo
  refine key _ fun r => ?_
  cases i with
  | caps =>
    dsimp only
    rw [binWrite_iff]
    exact ⟨fun h => .caps h, fun h => by cases h with | caps h => exact h⟩
  | longText =>
    dsimp only
    rw [binWrite_iff]
    exact ⟨fun h => .longText h, fun h => by cases h with | longText h => exact h⟩
  | emptyVal =>
    dsimp only
    rw [binWrite_iff, structBytes_nil]
    exact ⟨fun h => by subst h; exact .emptyVal, fun h => by cases h; rfl⟩
  | emptyPtr =>
    dsimp only
    rw [binWrite_iff, structBytes_nil]
    exact ⟨fun h => by subst h; exact .emptyPtr, fun h => by cases h; rfl⟩
  | bytes d =>
    simp only [Except.ok.injEq]
    exact ⟨fun h => by subst h; exact .bytes, fun h => by cases h; rfl⟩

theorem marshalArtworks_iff (l : List ArtworkFormat) (b : Bytes) : b = marshalArtworks l ↔ ArtworksForm l b := by
  induction l generalizing b with
  | nil =>
    simp only [marshalArtworks, List.map_nil, List.flatten_nil]
    exact ⟨fun h => by subst h; exact .nil, fun h => by cases h; rfl⟩
  | cons f fs ih =>
    have hs : structSize artworkSchema = some 7 := rfl
    simp only [marshalArtworks, List.map_cons, List.flatten_cons]
    constructor
    · rintro rfl
      exact .cons (structBytes_enc hs f.toVal) ((ih _).1 rfl)
    · intro h
      cases h with
      | cons h1 h2 => rw [structBytes_unique h1 (structBytes_enc hs f.toVal), (ih _).2 h2]; rfl

theorem marshalRates_iff (l : List UInt32) (b : Bytes) : b = marshalRates l ↔ RatesForm l b := by
  induction l generalizing b with
  | nil =>
    simp only [marshalRates, List.map_nil, List.flatten_nil]
    exact ⟨fun h => by subst h; exact .nil, fun h => by cases h; rfl⟩
  | cons f fs ih =>
    simp only [marshalRates, List.map_cons, List.flatten_cons]
    constructor
    · rintro rfl
      exact .cons ((encU32_iff f _).2 rfl) ((ih _).1 rfl)
    · intro h
      cases h with
      | cons h1 h2 => rw [(encU32_iff f _).1 h1, (ih _).2 h2]; rfl

theorem dispState_encode_iff (s : DispState) (b : Bytes) : s.encode = .ok b ↔ DispStateForm s b := by
  cases s <;> simp only [DispState.encode, binWrite_iff, DispStateForm, reduceCtorEq] <;>
    first
    | exact structBytes_b1 _ _
    | exact structBytes_b2 _ _ _
    | exact structBytes_b3 _ _ _ _
    | exact structBytes_one

theorem dispState_ok (s : DispState) : ∃ b, s.encode = .ok b := by cases s <;> exact ⟨_, rfl⟩

theorem writeIgnoring_state (s : DispState) (b : Bytes) :
    b = writeIgnoring s.encode ↔ DispStateForm s b := by
  obtain ⟨x, hx⟩ := dispState_ok s
  rw [hx, writeIgnoring, ← dispState_encode_iff, hx]
  simp [eq_comm]

theorem writeIgnoring_track (s : DispTrack) (b : Bytes) :
    b = writeIgnoring s.encode ↔
      ¬ carriesText s ∧ DispTrackForm s b ∨ carriesText s ∧ b = [] := by
  have key : ∀ x : Except Err Bytes, (∃ c, x = .ok c) → (b = writeIgnoring x ↔ x = .ok b) := by
    rintro _ ⟨c, rfl⟩; simp [writeIgnoring, eq_comm]
  cases s with
  | caps x y z =>
    rw [key (DispTrack.encode _) ⟨_, rfl⟩, DispTrack.encode, binWrite_iff]
    simp [carriesText, DispTrackForm]
  | artworkCount v =>
    rw [key (DispTrack.encode _) ⟨_, rfl⟩, DispTrack.encode, binWrite_iff]
    refine (structBytes_b1 _ _).trans ?_
    simp [carriesText, DispTrackForm]
  | _ => simp [DispTrack.encode, writeIgnoring, carriesText, binWrite, structSize, FTy.size]

theorem leVal_inj (a b : Bytes) (hl : a.length = b.length) (h : leVal a = leVal b) : a = b := by
  induction a generalizing b with
  | nil => exact (List.eq_nil_of_length_eq_zero hl.symm).symm
  | cons x xs ih =>
    cases b with
    | nil => simp at hl
    | cons y ys =>
      simp only [leVal] at h
      have hx := x.toNat_lt
      have hy := y.toNat_lt
      have h1 : x.toNat = y.toNat := by omega
      have h2 : leVal xs = leVal ys := by omega
      rw [UInt8.toNat_inj.1 h1, ih ys (by simpa using hl) h2]

theorem marshalButtons_iff (v : UInt32) (b : Bytes) : b = marshalButtons v ↔ ButtonsForm v b := by
  have hmin : ∀ b' : Bytes, b' ≠ [] → leVal b' = v.toNat → (marshalButtons v).length ≤ b'.length := by
    intro b' hne hb
    rw [marshalButtons_length]
    apply (buttonLen_spec v b'.length (List.length_pos_iff.2 hne)).1
    rw [← hb]
    exact leVal_lt b'
  have hne : marshalButtons v ≠ [] := by
    rw [← List.length_pos_iff, marshalButtons_length]; exact (buttonLen_le v).1
  constructor
  · rintro rfl
    exact ⟨hne, leVal_marshalButtons v, hmin⟩
  · rintro ⟨h1, h2, h3⟩
    apply leVal_inj
    · have := h3 _ hne (leVal_marshalButtons v)
      have := hmin _ h1 h2
      omega
    · rw [h2, leVal_marshalButtons]

/-! ### The code's form against the wire form -/

theorem elements_mono {α : Type} {L M : Nat → UInt8 → Prop} {R S : α → Bytes → Prop} {l : List α} {b : Bytes}
    (h : ElementsForm L R l b) (hR : ∀ v ∈ l, ∀ b n, R v b → L b.length n → S v b ∧ M b.length n) :
    ElementsForm M S l b := by
  induction h with
  | nil => exact .nil
  | @cons v vs n b rest h1 h2 h3 ih =>
    obtain ⟨h4, h5⟩ := hR v List.mem_cons_self b n h1 h2
    exact .cons h4 h5 (ih fun w hw => hR w (List.mem_cons_of_mem _ hw))

theorem elements_all {α : Type} {L : Nat → UInt8 → Prop} {R : α → Bytes → Prop} {P : α → Prop} {l : List α} {b : Bytes}
    (h : ElementsForm L R l b) (hR : ∀ v b n, R v b → L b.length n → P v) : ∀ v ∈ l, P v := by
  induction h with
  | nil => simp
  | cons h1 h2 h3 ih =>
    intro w hw
    rcases List.mem_cons.1 hw with rfl | hw
    · exact hR _ _ _ h1 h2
    · exact ih w hw

theorem exact_mod {k : Nat} {n : UInt8} (h : n.toNat = k) : n.toNat = k % 256 := by
  have := n.toNat_lt
  rw [← h]; omega

theorem tokenForm_mod {t : FIDToken} {b : Bytes} (h : TokenForm (fun k n => n.toNat = k) t b) :
    TokenForm (fun k n => n.toNat = k % 256) t b := by
  cases h with
  | identify h1 h2 h3 => exact .identify (exact_mod h1) h2 h3
  | accCaps h => exact .accCaps h
  | ipodPref => exact .ipodPref
  | bundleSeed => exact .bundleSeed
  | screenInfo h => exact .screenInfo h
  | eaMetadata => exact .eaMetadata
  | micCaps h => exact .micCaps h
  | raw => exact .raw

theorem structBytes_len {fs : List FTy} {n : Nat} (hs : structSize fs = some n) {v : SVal fs} {b : Bytes}
    (h : StructBytes fs v b) : b.length = n := by
  rw [structBytes_unique h (structBytes_enc hs v), encStruct_length hs]

/-- A token whose parts fit is written with its true lengths. -/
theorem token_exact {v : FIDTokenValue} (hf : TokenFits v) {b : Bytes}
    (h : TokenValueForm (fun k n => n.toNat = k % 256) v b) :
    TokenValueForm (fun k n => n.toNat = k) v b ∧ b.length ≤ 255 := by
  obtain ⟨body, h1, rfl⟩ := h
  obtain ⟨id, t⟩ := v
  simp only at h1
  have key : TokenForm (fun k n => n.toNat = k) t body ∧ body.length + 2 ≤ 255 := by
    cases h1 with
    | identify h1 h2 h3 =>
      simp only [TokenFits] at hf
      refine ⟨.identify (by omega) h2 h3, ?_⟩
      simp [h2.1, h3.1]; omega
    | accCaps h => exact ⟨.accCaps h, by rw [h.1]; decide⟩
    | ipodPref => exact ⟨.ipodPref, by simp⟩
    | @bundleSeed s => exact ⟨.bundleSeed, by rw [s.2]; decide⟩
    | screenInfo h => exact ⟨.screenInfo h, by rw [structBytes_len (n := 14) rfl h]; decide⟩
    | eaMetadata => exact ⟨.eaMetadata, by simp⟩
    | micCaps h => exact ⟨.micCaps h, by rw [h.1]; decide⟩
    | raw => exact ⟨.raw, hf⟩
  exact ⟨⟨body, key.1, rfl⟩, by simp; omega⟩

theorem token_fits {v : FIDTokenValue} {b : Bytes} {n : UInt8}
    (h : TokenValueForm (fun k n => n.toNat = k) v b) (hn : n.toNat = b.length) : TokenFits v := by
  obtain ⟨body, h1, rfl⟩ := h
  have := n.toNat_lt
  obtain ⟨id, t⟩ := v
  simp only at h1
  cases h1 with
  | identify h1 h2 h3 =>
    simp only [List.length_cons, List.length_append, h2.1, h3.1] at hn
    simp only [TokenFits]; omega
  | raw =>
    simp only [List.length_cons] at hn
    simp only [TokenFits]; omega
  | _ => trivial

theorem tokens_exact_iff {l : List FIDTokenValue} {b : Bytes}
    (h : CountedForm (fun k n => n.toNat = k % 256) (TokenValueForm (fun k n => n.toNat = k % 256)) l b) :
    CountedForm (fun k n => n.toNat = k) (TokenValueForm (fun k n => n.toNat = k)) l b ↔
      l.length ≤ 255 ∧ ∀ x ∈ l, TokenFits x := by
  constructor
  · rintro ⟨n, r, rfl, h1, h2⟩
    have := n.toNat_lt
    exact ⟨by omega, elements_all h2 fun v b n hv hn => token_fits hv hn⟩
  · rintro ⟨h1, h2⟩
    obtain ⟨n, r, rfl, h3, h4⟩ := h
    refine ⟨n, r, rfl, by omega, elements_mono h4 fun v hv b n hb hn => ?_⟩
    obtain ⟨h5, h6⟩ := token_exact (h2 v hv) hb
    exact ⟨h5, by omega⟩

theorem tokens_mod {l : List FIDTokenValue} {b : Bytes}
    (h : CountedForm (fun k n => n.toNat = k) (TokenValueForm (fun k n => n.toNat = k)) l b) :
    CountedForm (fun k n => n.toNat = k % 256) (TokenValueForm (fun k n => n.toNat = k % 256)) l b := by
  obtain ⟨n, r, rfl, h3, h4⟩ := h
  refine ⟨n, r, rfl, exact_mod h3, elements_mono h4 fun v hv b n hb hn => ⟨?_, exact_mod hn⟩⟩
  obtain ⟨body, h5, rfl⟩ := hb
  exact ⟨body, tokenForm_mod h5, rfl⟩

theorem acks_exact_iff {l : List FIDTokenValueACK} {b : Bytes}
    (h : CountedForm (fun k n => n.toNat = k % 256) AckForm l b) :
    CountedForm (fun k n => n.toNat = k) AckForm l b ↔
      l.length ≤ 255 ∧ ∀ x ∈ l, ∀ c, x.ack = some c → c.length + 2 ≤ 255 := by
  constructor
  · rintro ⟨n, r, rfl, h1, h2⟩
    have := n.toNat_lt
    refine ⟨by omega, elements_all h2 fun v b n hv hn c hc => ?_⟩
    obtain ⟨body, h3, rfl⟩ := hv
    rw [hc] at h3
    cases h3
    have := n.toNat_lt
    simp only [List.length_cons] at hn
    omega
  · rintro ⟨h1, h2⟩
    obtain ⟨n, r, rfl, h3, h4⟩ := h
    refine ⟨n, r, rfl, by omega, elements_mono h4 fun v hv b n hb hn => ⟨hb, ?_⟩⟩
    obtain ⟨body, h5, rfl⟩ := hb
    have := h2 v hv body h5
    simp only [List.length_cons] at hn ⊢
    omega

theorem acks_mod {l : List FIDTokenValueACK} {b : Bytes}
    (h : CountedForm (fun k n => n.toNat = k) AckForm l b) :
    CountedForm (fun k n => n.toNat = k % 256) AckForm l b := by
  obtain ⟨n, r, rfl, h3, h4⟩ := h
  exact ⟨n, r, rfl, exact_mod h3, elements_mono h4 fun v hv b n hb hn => ⟨hb, exact_mod hn⟩⟩

theorem dispTrack_emptyText {s : DispTrack} {b c : Bytes} (h : carriesText s) (hb : DispTrackForm s b)
    (hc : DispTrackForm s c) : b = [] → c = [] := by
  rintro rfl
  cases s <;> simp only [carriesText] at h <;> simp only [DispTrackForm] at hb hc
  case chapterTimeName => obtain ⟨x, h1, h2⟩ := hb; have h3 := congrArg List.length h2; simp [h1.1] at h3; omega
  case lyrics => obtain ⟨x, h1, h2⟩ := hb; cases h2
  all_goals rw [hc, ← hb]

end Ipod
