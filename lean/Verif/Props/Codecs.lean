import Verif.Lemmas.Decode
import Verif.Model.Util
import Verif.Spec.Serde

/-! # Properties C22–C24, C26–C28: message codecs -/

namespace Props
open Go Spec Ipod

/-! ## C22 -/

/-- C22. Encoding a message of fixed-size fields: `binary.Size` bytes, laid out field by field. -/
theorem C22_struct_encoding (fs : List FTy) (n : Nat) (h : FixedSize fs n) (v : SVal fs) :
    structSize fs = some n ∧
    ∃ b, binWrite fs v = .ok b ∧ b.length = n ∧ ∀ b', StructBytes fs v b' ↔ b' = b := by
  have hs := (structSize_iff _ _).2 h
  refine ⟨hs, _, binWrite_eq hs v, encStruct_length hs v, fun b' => ⟨fun hb => ?_, ?_⟩⟩
  · exact structBytes_unique hb (structBytes_enc hs v)
  · rintro rfl; exact structBytes_enc hs v

example : ∃ b, binWrite [.u16, .i16, .bool] (0x0102, -2, true, ()) = .ok b ∧ b.length = 5 ∧
    ∀ b', StructBytes [.u16, .i16, .bool] (0x0102, -2, true, ()) b' ↔ b' = b :=
  (C22_struct_encoding [.u16, .i16, .bool] 5 ((structSize_iff _ _).1 rfl) (0x0102, -2, true, ())).2

/-- C22. Decoding gives the value back and leaves what follows; too few bytes are an error. -/
theorem C22_struct_decoding (fs : List FTy) (n : Nat) (h : FixedSize fs n) :
    (∀ v b rest, StructBytes fs v b → binRead fs (b ++ rest) = (.ok v, rest)) ∧
    (∀ r : Bytes, r.length < n → ∃ e, (binRead fs r).1 = .error e) ∧
    (∀ r : Bytes, n ≤ r.length → ∃ v, binRead fs r = (.ok v, r.drop n) ∧ StructReads fs v (r.take n)) := by
  have hs := (structSize_iff _ _).2 h
  refine ⟨fun v b rest hb => ?_, fun r hr => ⟨_, by rw [binRead_short hs hr]⟩, fun r hr => ?_⟩
  · rw [structBytes_unique hb (structBytes_enc hs v)]
    exact binRead_encStruct hs v rest
  · obtain ⟨v, hv, hd⟩ := binRead_long hs hr
    exact ⟨v, hv, (decStruct_iff hs _ (by simp; omega) _).1 hd⟩

example : ∀ r : Bytes, r.length < 5 → ∃ e, (binRead [.u16, .i16, .bool] r).1 = .error e :=
  (C22_struct_decoding [.u16, .i16, .bool] 5 ((structSize_iff _ _).1 rfl)).2.1

/-- C22. A message with a slice or interface field has no such encoding. -/
theorem C22_no_fixed_size (fs : List FTy) (v : SVal fs) (h : ∀ n, ¬ FixedSize fs n) :
    structSize fs = none ∧ ∃ e, binWrite fs v = .error e := by
  have hs : structSize fs = none := by
    cases hn : structSize fs with
    | none => rfl
    | some n => exact absurd ((structSize_iff _ _).1 hn) (h n)
  exact ⟨hs, Err.invalidType, by simp [binWrite, hs]⟩

example : structSize [.u8, .bytes] = none ∧ ∃ e, binWrite [.u8, .bytes] (1, [2, 3], ()) = .error e :=
  C22_no_fixed_size [.u8, .bytes] (1, [2, 3], ()) (by
    intro n h
    have := (structSize_iff _ _).2 h
    simp [structSize, FTy.size] at this)

example : FixedSize (TypeId.schema (.disp .RetPlayStatus)) 13 := (structSize_iff _ _).1 rfl
example : StructBytes [.u16, .i16, .bool] (0x0102, -2, true, ()) [0x01, 0x02, 0xFF, 0xFE, 0x01] :=
  .cons (f := .u16) (b := [0x01, 0x02]) ⟨rfl, rfl⟩
    (.cons (f := .i16) (b := [0xFF, 0xFE]) ⟨rfl, by decide +kernel⟩ (.cons (f := .bool) (b := [1]) rfl .nil))
example : ∀ n, ¬ FixedSize [.u8, .bytes] n := by
  intro n h
  have := (structSize_iff _ _).2 h
  simp [structSize, FTy.size] at this

/-! ## C23 -/

/-- The three messages that are a button mask. -/
inductive Spec.IsButtons (x : UInt32) : Payload → Prop
  | context : IsButtons x (.ptr (.sim .ContextButtonStatus) (x, (), ()))
  | video : IsButtons x (.ptr (.sim .VideoButtonStatus) (x, (), ()))
  | audio : IsButtons x (.ptr (.sim .AudioButtonStatus) (x, (), ()))

/-- C23. The mask is sent little-endian in the fewest bytes, at least one. -/
theorem C23_buttons_encoding (x : UInt32) (p : Payload) (h : Spec.IsButtons x p) :
    ∃ b, encodePayload p = .ok b ∧ leVal b = x.toNat ∧ 1 ≤ b.length ∧ b.length ≤ 4 ∧
      ∀ b' : Bytes, b' ≠ [] → leVal b' = x.toNat → b.length ≤ b'.length := by
  refine ⟨marshalButtons x, by cases h <;> rfl, leVal_marshalButtons x, ?_, ?_, ?_⟩
  · rw [marshalButtons_length]; exact (buttonLen_le x).1
  · rw [marshalButtons_length]; exact (buttonLen_le x).2
  · intro b' hne hb
    rw [marshalButtons_length]
    apply (buttonLen_spec x b'.length (List.length_pos_iff.2 hne)).1
    rw [← hb]
    exact leVal_lt b'

example : ∃ b, encodePayload (.ptr (.sim .ContextButtonStatus) (0x00020100, (), ())) = .ok b ∧ leVal b = 0x00020100 ∧ 1 ≤ b.length ∧
    b.length ≤ 4 ∧ ∀ b' : Bytes, b' ≠ [] → leVal b' = 0x00020100 → b.length ≤ b'.length :=
  C23_buttons_encoding 0x00020100 _ .context

/-- C23. Decoding uses the first four bytes at most; empty data is refused. -/
theorem C23_buttons_decoding (t : SimT)
    (h : t = .ContextButtonStatus ∨ t = .VideoButtonStatus ∨ t = .AudioButtonStatus) :
    (∃ e, decodePayload (.sim t) [] = .ret (.error e)) ∧
    ∀ d : Bytes, d ≠ [] → ∃ (x : UInt32) (v : (TypeId.sim t).Val), decodePayload (.sim t) d = .ret (.ok v) ∧
      Spec.IsButtons x (.ptr (.sim t) v) ∧ x.toNat = leVal (d.take 4) := by
  have key : ∀ d : Bytes, d ≠ [] →
      unmarshalButtons d = .ok (UInt32.ofNat (leVal (d.take 4))) ∧
      (UInt32.ofNat (leVal (d.take 4))).toNat = leVal (d.take 4) := by
    intro d hd
    refine ⟨by rw [unmarshalButtons_eq, if_neg hd], ?_⟩
    have := leVal_lt (d.take 4)
    have hl : (d.take 4).length ≤ 4 := by simp; omega
    have h2 : 256 ^ (d.take 4).length ≤ 256 ^ 4 := Nat.pow_le_pow_right (by omega) hl
    simp only [UInt32.toNat_ofNat']
    omega
  rcases h with rfl | rfl | rfl
  all_goals
    refine ⟨⟨_, rfl⟩, fun d hd => ⟨UInt32.ofNat (leVal (d.take 4)), (_, (), ()), ?_, by constructor, (key d hd).2⟩⟩
    simp [decodePayload, TypeId.unmarshalBinary, mapVal, (key d hd).1]

example : ∃ e, decodePayload (.sim .AudioButtonStatus) [] = .ret (.error e) := (C23_buttons_decoding .AudioButtonStatus (by simp)).1

/-- C23. Every mask survives. -/
theorem C23_buttons_roundtrip (x : UInt32) (t : SimT) (v : (TypeId.sim t).Val)
    (h : Spec.IsButtons x (.ptr (.sim t) v)) :
    ∃ b, encodePayload (.ptr (.sim t) v) = .ok b ∧ decodePayload (.sim t) b = .ret (.ok v) := by
  refine ⟨marshalButtons x, by cases h <;> rfl, ?_⟩
  cases h <;> simp [decodePayload, TypeId.unmarshalBinary, mapVal, buttons_roundtrip]

example : ∃ b, encodePayload (.ptr (.sim .VideoButtonStatus) (0x00020100, (), ())) = .ok b ∧
    decodePayload (.sim .VideoButtonStatus) b = .ret (.ok (0x00020100, (), ())) :=
  C23_buttons_roundtrip 0x00020100 .VideoButtonStatus (0x00020100, (), ()) .video

example : encodePayload (.ptr (.sim .ContextButtonStatus) (0x00020100, (), ())) = .ok [0x00, 0x01, 0x02] := by
  decide +kernel
example : encodePayload (.ptr (.sim .ContextButtonStatus) (0, (), ())) = .ok [0x00] := by decide +kernel

/-! ## C24 -/

/-- Length-delimited token bytes. -/
def Spec.delimited (tbs : List Bytes) : Bytes := (tbs.map fun tb => UInt8.ofNat tb.length :: tb).flatten

/-- C24. Lists of encodable tokens survive, whatever follows them. -/
theorem C24_tokens_roundtrip (l : List FIDTokenValue) (hl : l.length ≤ 255) (h : ∀ v ∈ l, TokenOK v) :
    ∃ b, encodePayload (.ptr (.gen .SetFIDTokenValues) (l, ())) = .ok b ∧
      ∀ rest, decodePayload (.gen .SetFIDTokenValues) (b ++ rest) = .ret (.ok (l, ())) := by
  obtain ⟨b, h1, h2⟩ := tokens_roundtrip l hl h
  refine ⟨b, by simp [encodePayload, TypeId.marshalBinary, h1], fun rest => ?_⟩
  simp [decodePayload, TypeId.unmarshalBinary, mapVal, h2 rest]

example : ∃ b, encodePayload (.ptr (.gen .SetFIDTokenValues) ([⟨⟨0, 3⟩, .ipodPref 1 2 3⟩, ⟨⟨5, 5⟩, .raw [9, 9]⟩], ())) = .ok b ∧
    ∀ rest, decodePayload (.gen .SetFIDTokenValues) (b ++ rest) = .ret (.ok ([⟨⟨0, 3⟩, .ipodPref 1 2 3⟩, ⟨⟨5, 5⟩, .raw [9, 9]⟩], ())) :=
  C24_tokens_roundtrip _ (by decide) (by simp [TokenOK, knownTokenID])

/-- C24. Each token is decoded from its own bytes only: the list decodes element by element. -/
theorem C24_token_isolation (tbs : List Bytes) (hl : tbs.length ≤ 255) (hs : ∀ tb ∈ tbs, tb.length ≤ 255)
    (dec : Bytes → FIDTokenValue) (hd : ∀ tb ∈ tbs, unmarshalTokenValue tb = .ret (.ok (dec tb))) (rest : Bytes) :
    decodePayload (.gen .SetFIDTokenValues) (UInt8.ofNat tbs.length :: (Spec.delimited tbs ++ rest)) =
      .ret (.ok (tbs.map dec, ())) := by
  have key : ∀ (tbs : List Bytes), (∀ tb ∈ tbs, tb.length ≤ 255) →
      (∀ tb ∈ tbs, unmarshalTokenValue tb = .ret (.ok (dec tb))) →
      unmarshalList unmarshalTokenValue tbs.length (Spec.delimited tbs ++ rest) = .ret (.ok (tbs.map dec)) := by
    intro tbs
    induction tbs with
    | nil => intros; rfl
    | cons tb tbs ih =>
      intro hs hd
      have ih := ih (fun x hx => hs x (List.mem_cons_of_mem _ hx)) (fun x hx => hd x (List.mem_cons_of_mem _ hx))
      have hlen := hs tb (by simp)
      have e : (UInt8.ofNat tb.length).toNat = tb.length := by simp; omega
      have happ : Spec.delimited (tb :: tbs) ++ rest =
          UInt8.ofNat tb.length :: (tb ++ (Spec.delimited tbs ++ rest)) := by
        simp [Spec.delimited]
      rw [happ, List.length_cons, unmarshalList, e]
      simp only [List.take_left, List.drop_left, hd tb (by simp), Out.bind_ret, ih, List.map_cons]
  have e : (UInt8.ofNat tbs.length).toNat = tbs.length := by simp; omega
  have := key tbs hs hd
  simp [decodePayload, TypeId.unmarshalBinary, mapVal, unmarshalTokens, e, this]

example : decodePayload (.gen .SetFIDTokenValues) (UInt8.ofNat 1 :: (Spec.delimited [[0x00, 0x03, 0x01, 0x02, 0x03]] ++ [7])) =
    .ret (.ok ([⟨⟨0, 3⟩, .ipodPref 1 2 3⟩], ())) :=
  C24_token_isolation [[0x00, 0x03, 0x01, 0x02, 0x03]] (by decide) (by decide) (fun _ => ⟨⟨0, 3⟩, .ipodPref 1 2 3⟩)
    (by intro tb h; rw [List.mem_singleton.1 h]; decide +kernel) [7]

/-- C24. The encoding is the count and the length-delimited tokens: type, subtype, body. -/
theorem C24_tokens_layout (l : List FIDTokenValue) (h : ∀ v ∈ l, TokenOK v) :
    ∃ bodies : List Bytes, bodies.length = l.length ∧
      encodePayload (.ptr (.gen .SetFIDTokenValues) (l, ())) = .ok (UInt8.ofNat l.length ::
        Spec.delimited (List.zipWith (fun v body => v.id.fidType :: v.id.fidSubtype :: body) l bodies)) ∧
      ∀ p ∈ List.zip l bodies, 2 + p.2.length ≤ 255 ∧ unmarshalToken p.1.id p.2 = .ret (.ok p.1.token) := by
  have key : ∀ l : List FIDTokenValue, (∀ v ∈ l, TokenOK v) → ∃ bodies : List Bytes, bodies.length = l.length ∧
      marshalList marshalTokenValue l = .ok
        (Spec.delimited (List.zipWith (fun v body => v.id.fidType :: v.id.fidSubtype :: body) l bodies)) ∧
      ∀ p ∈ List.zip l bodies, 2 + p.2.length ≤ 255 ∧ unmarshalToken p.1.id p.2 = .ret (.ok p.1.token) := by
    intro l
    induction l with
    | nil => intro _; exact ⟨[], rfl, rfl, by simp⟩
    | cons v l ih =>
      intro h
      obtain ⟨bodies, h1, h2, h3⟩ := ih fun x hx => h x (List.mem_cons_of_mem _ hx)
      obtain ⟨b, hb1, hb2, hb3⟩ := token_roundtrip v (h v (by simp))
      have hm : ∃ body, marshalToken v.token = .ok body ∧ b = v.id.fidType :: v.id.fidSubtype :: body := by
        rw [marshalTokenValue] at hb1
        cases hmt : marshalToken v.token with
        | error e => rw [hmt] at hb1; simp at hb1
        | ok body => rw [hmt] at hb1; simp at hb1; exact ⟨body, rfl, hb1.symm⟩
      obtain ⟨body, hm1, rfl⟩ := hm
      refine ⟨body :: bodies, by simp [h1], ?_, ?_⟩
      · simp [marshalList, hb1, h2, Spec.delimited]
      · intro p hp
        simp only [List.zip_cons_cons, List.mem_cons] at hp
        rcases hp with rfl | hp
        · refine ⟨by simp at hb2 ⊢; omega, ?_⟩
          simp only [unmarshalTokenValue, binRead_2u8] at hb3
          cases hu : unmarshalToken ⟨v.id.fidType, v.id.fidSubtype⟩ body with
          | panic => rw [hu] at hb3; simp at hb3
          | ret x =>
            rw [hu] at hb3
            cases x with
            | error e => simp at hb3
            | ok t =>
              simp only [Out.bind_ret, Out.ret.injEq, Except.ok.injEq] at hb3
              have := congrArg FIDTokenValue.token hb3
              simp only at this
              rw [this]
        · exact h3 p hp
  obtain ⟨bodies, h1, h2, h3⟩ := key l h
  exact ⟨bodies, h1, by simp [encodePayload, TypeId.marshalBinary, marshalTokens, h2], h3⟩

example : ∃ bodies : List Bytes, bodies.length = 2 ∧
    encodePayload (.ptr (.gen .SetFIDTokenValues) ([⟨⟨0, 3⟩, .ipodPref 1 2 3⟩, ⟨⟨5, 5⟩, .raw [9, 9]⟩], ())) = .ok (2 ::
      Spec.delimited (List.zipWith (fun (v : FIDTokenValue) body => v.id.fidType :: v.id.fidSubtype :: body)
        [⟨⟨0, 3⟩, .ipodPref 1 2 3⟩, ⟨⟨5, 5⟩, .raw [9, 9]⟩] bodies)) :=
  have ⟨bodies, h1, h2, _⟩ := C24_tokens_layout [⟨⟨0, 3⟩, .ipodPref 1 2 3⟩, ⟨⟨5, 5⟩, .raw [9, 9]⟩] (by simp [TokenOK, knownTokenID])
  ⟨bodies, h1, h2⟩

example : ∀ v ∈ [⟨⟨0, 3⟩, .ipodPref 1 2 3⟩, ⟨⟨5, 5⟩, .raw [9, 9]⟩], TokenOK v := by
  simp [TokenOK, knownTokenID]
example : encodePayload (.ptr (.gen .SetFIDTokenValues) ([⟨⟨0, 3⟩, .ipodPref 1 2 3⟩, ⟨⟨5, 5⟩, .raw [9]⟩], ())) =
    .ok [0x02, 0x05, 0x00, 0x03, 0x01, 0x02, 0x03, 0x03, 0x05, 0x05, 0x09] := by decide +kernel
example : unmarshalTokenValue [0x00, 0x03, 0x01, 0x02, 0x03] = .ret (.ok ⟨⟨0, 3⟩, .ipodPref 1 2 3⟩) := by
  decide +kernel

/-! ## C26 -/

/-- `b` is a sequence of big-endian 32-bit numbers. -/
inductive Spec.RateBytes : List UInt32 → Bytes → Prop
  | nil : RateBytes [] []
  | cons {r rs b bs} : IsBE 4 (UInt32.toNat r) b → RateBytes rs bs → RateBytes (r :: rs) (b ++ bs)

/-- C26. Sample rates: any list survives, and up to three bytes behind it are ignored. -/
theorem C26_sample_rates (rs : List UInt32) (rest : Bytes) (hr : rest.length < 4) :
    ∃ b, encodePayload (.ptr (.aud .RetAccSampleRateCaps) (rs, ())) = .ok b ∧ Spec.RateBytes rs b ∧
      decodePayload (.aud .RetAccSampleRateCaps) (b ++ rest) = .ret (.ok (rs, ())) := by
  refine ⟨marshalRates rs, rfl, ?_, ?_⟩
  · induction rs with
    | nil => exact .nil
    | cons r rs ih =>
      rw [marshalRates_cons]
      exact .cons (fieldBytes_enc (f := .u32) rfl r) ih
  · simp [decodePayload, TypeId.unmarshalBinary, okVal, rates_roundtrip rs rest hr]

example : ∃ b, encodePayload (.ptr (.aud .RetAccSampleRateCaps) ([32000, 44100], ())) = .ok b ∧ Spec.RateBytes [32000, 44100] b ∧
    decodePayload (.aud .RetAccSampleRateCaps) (b ++ [1, 2, 3]) = .ret (.ok ([32000, 44100], ())) :=
  C26_sample_rates [32000, 44100] [1, 2, 3] (by decide)

/-- C26. Artwork formats: any list survives. -/
theorem C26_artwork_formats (l : List ArtworkFormat) :
    ∃ b, encodePayload (.ptr (.ext .RetArtworkFormats) (l, ())) = .ok b ∧
      decodePayload (.ext .RetArtworkFormats) b = .ret (.ok (l, ())) :=
  ⟨_, rfl, by simp [decodePayload, TypeId.unmarshalBinary, mapVal, artworks_roundtrip]⟩

/-- C26. Artwork formats: an incomplete record (7 bytes each) is an error, nothing else is. -/
theorem C26_artwork_incomplete (d : Bytes) :
    (∃ e, decodePayload (.ext .RetArtworkFormats) d = .ret (.error e)) ↔ d.length % 7 ≠ 0 := by
  simp only [decodePayload, TypeId.unmarshalBinary, mapVal]
  rcases unmarshalArtworks_iff d with ⟨fs, h1, h2⟩ | ⟨h1, h2⟩
  · rw [h1]
    simp
    omega
  · rw [h1]
    simpa using h2

example : encodePayload (.ptr (.aud .RetAccSampleRateCaps) ([32000, 44100], ())) =
    .ok [0x00, 0x00, 0x7D, 0x00, 0x00, 0x00, 0xAC, 0x44] := by decide +kernel
example : decodePayload (.ext .RetArtworkFormats) [0x04, 0x04, 0x02, 0x00, 0x64, 0x00, 0x64] =
    .ret (.ok ([⟨0x0404, 2, 100, 100⟩], ())) := by decide +kernel

/-! ## C27 -/

/-- C27. State infos of every documented type survive. -/
theorem C27_state_info (ty : UInt8) (i : DispState) (h : DispStateOK ty i) :
    ∃ b, encodePayload (.ptr (.disp .RetiPodStateInfo) (ty, i, ())) = .ok b ∧
      decodePayload (.disp .RetiPodStateInfo) b = .ret (.ok (ty, i, ())) :=
  ⟨_, rfl, by simp [decodePayload, TypeId.unmarshalBinary, dispState_roundtrip ty i h]⟩

example : ∃ b, encodePayload (.ptr (.disp .RetiPodStateInfo) (0x09, .dateTime 2020 1 2 3 4, ())) = .ok b ∧
    decodePayload (.disp .RetiPodStateInfo) b = .ret (.ok (0x09, .dateTime 2020 1 2 3 4, ())) :=
  C27_state_info 0x09 (.dateTime 2020 1 2 3 4) rfl

/-- C27 (capabilities and artwork count only). Missing: the text infos, see `C27_track_text_lost`. -/
theorem C27_track_info_partial (ty : UInt8) (i : DispTrack) (h : DispTrackOK ty i) (hf : DispTrackFixed i) :
    ∃ b, encodePayload (.ptr (.disp .RetIndexedPlayingTrackInfo) (ty, i, ())) = .ok b ∧
      decodePayload (.disp .RetIndexedPlayingTrackInfo) b = .ret (.ok (ty, i, ())) :=
  ⟨_, rfl, by simp [decodePayload, TypeId.unmarshalBinary, dispTrack_roundtrip ty i h hf]⟩

example : ∃ b, encodePayload (.ptr (.disp .RetIndexedPlayingTrackInfo) (0x00, .caps 1 2 3, ())) = .ok b ∧
    decodePayload (.disp .RetIndexedPlayingTrackInfo) b = .ret (.ok (0x00, .caps 1 2 3, ())) :=
  C27_track_info_partial 0x00 (.caps 1 2 3) rfl trivial

/-- C27 fails for the seven text infos: only the type byte is sent, and it is refused. -/
theorem C27_track_text_lost (ty : UInt8) (i : DispTrack) (h : DispTrackOK ty i) (hf : ¬ DispTrackFixed i) :
    encodePayload (.ptr (.disp .RetIndexedPlayingTrackInfo) (ty, i, ())) = .ok [ty] ∧
      ∃ e, decodePayload (.disp .RetIndexedPlayingTrackInfo) [ty] = .ret (.error e) := by
  obtain ⟨h1, h2⟩ := dispTrack_text ty i h hf
  exact ⟨by simp [encodePayload, TypeId.marshalBinary, h1], Err.invalidType,
    by simp only [decodePayload, TypeId.unmarshalBinary, h2]⟩

example : encodePayload (.ptr (.disp .RetIndexedPlayingTrackInfo) (0x02, .artist [0x41, 0x00], ())) = .ok [0x02] ∧
    ∃ e, decodePayload (.disp .RetIndexedPlayingTrackInfo) [0x02] = .ret (.error e) :=
  C27_track_text_lost 0x02 (.artist [0x41, 0x00]) rfl (fun h => h)

example : DispStateOK 0x09 (.dateTime 2020 1 2 3 4) := rfl
example : DispTrackOK 0x00 (.caps 1 2 3) ∧ DispTrackFixed (.caps 1 2 3) := ⟨rfl, trivial⟩
example : DispTrackOK 0x02 (.artist [0x41, 0x00]) ∧ ¬ DispTrackFixed (.artist [0x41, 0x00]) := ⟨rfl, fun h => h⟩

/-! ## C28 -/

/-- The messages that are a string, built as the handlers do. -/
inductive Spec.IsString (s : Bytes) : Payload → Prop
  | name : IsString s (.ptr (.gen .ReturniPodName) (stringToBytes s, ()))
  | serial : IsString s (.ptr (.gen .ReturniPodSerialNum) (stringToBytes s, ()))
  | title : IsString s (.ptr (.ext .ReturnIndexedPlayingTrackTitle) (stringToBytes s, ()))
  | artist : IsString s (.ptr (.ext .ReturnIndexedPlayingTrackArtistName) (stringToBytes s, ()))
  | album : IsString s (.ptr (.ext .ReturnIndexedPlayingTrackAlbumName) (stringToBytes s, ()))

/-- C28. A string is sent as its bytes and one NUL, and decoded to the same. -/
theorem C28_string_messages (s : Bytes) (t : TypeId) (v : t.Val) (h : Spec.IsString s (.ptr t v)) :
    encodePayload (.ptr t v) = .ok (s ++ [0x00]) ∧ decodePayload t (s ++ [0x00]) = .ret (.ok v) := by
  cases h <;> exact ⟨rfl, rfl⟩

example : encodePayload (.ptr (.gen .ReturniPodName) (stringToBytes [0x69], ())) = .ok ([0x69] ++ [0x00]) ∧
    decodePayload (.gen .ReturniPodName) ([0x69] ++ [0x00]) = .ret (.ok (stringToBytes [0x69], ())) :=
  C28_string_messages [0x69] (.gen .ReturniPodName) (stringToBytes [0x69], ()) .name

/-- C28. The model number: 4 bytes of id, then the string. -/
theorem C28_model_number (id : UInt32) (s : Bytes) :
    ∃ b, IsBE 4 id.toNat b ∧
      encodePayload (.ptr (.gen .ReturniPodModelNum) (id, stringToBytes s, ())) = .ok (b ++ (s ++ [0x00])) ∧
      decodePayload (.gen .ReturniPodModelNum) (b ++ (s ++ [0x00])) = .ret (.ok (id, stringToBytes s, ())) := by
  refine ⟨FTy.enc .u32 id, fieldBytes_enc (f := .u32) rfl id, rfl, ?_⟩
  simp only [decodePayload, TypeId.unmarshalBinary, unmarshalModelNum, okVal]
  rw [readOrZero_enc (f := .u32) rfl]
  rfl

example : encodePayload (.ptr (.gen .ReturniPodName) (stringToBytes "ipod".toUTF8.toList, ())) =
    .ok [0x69, 0x70, 0x6F, 0x64, 0x00] := by decide +kernel

end Props
