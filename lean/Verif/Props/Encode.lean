import Verif.Lemmas.Encode

/-! # Bytes of the messages sent -/

namespace Props
open Go Spec Ipod

/-! ## C90 -/

theorem plain_iff (t : TypeId) (v : t.Val) (b : Bytes) (h : t.marshalBinary v = none) :
    encodePayload (.ptr t v) = .ok b ↔ StructBytes t.schema v b := by
  rw [encodePayload, h]
  exact binWrite_iff _ _ _

/-- C90. Exactly what is encoded, for every message type and value: a message without such a form is refused. -/
theorem C90_sent (t : TypeId) (v : t.Val) (b : Bytes) : encodePayload (.ptr t v) = .ok b ↔ SentForm t v b := by
  cases t with
  | gen g =>
    cases g <;> first
      | exact plain_iff _ _ _ rfl
      | exact ⟨fun h => by cases h; rfl, fun h => by cases h; rfl⟩
      | exact marshalTokens_iff _ _
      | exact marshalAcks_iff _ _
      | exact ⟨fun h => by cases h; exact ⟨_, (encU32_iff _ _).2 rfl, rfl⟩,
          fun ⟨x, h1, h2⟩ => by subst h2; rw [(encU32_iff _ _).1 h1]; rfl⟩
  | ext g =>
    cases g <;> first
      | exact plain_iff _ _ _ rfl
      | exact ⟨fun h => by cases h; rfl, fun h => by cases h; rfl⟩
      | exact marshalExtInfo_iff _ _ _
      | exact ⟨fun h => by cases h; exact (marshalArtworks_iff _ _).1 rfl,
          fun h => by have h' := (marshalArtworks_iff _ _).2 h; subst h'; rfl⟩
  | disp g =>
    cases g <;> first
      | exact plain_iff _ _ _ rfl
      | exact ⟨fun h => by cases h; exact ⟨_, (writeIgnoring_state _ _).1 rfl, rfl⟩,
          fun ⟨r, h, hb⟩ => by have h' := (writeIgnoring_state _ _).2 h; subst h'; subst hb; rfl⟩
      | exact ⟨fun h => by cases h; exact ⟨_, (writeIgnoring_track _ _).1 rfl, rfl⟩,
          fun ⟨r, h, hb⟩ => by have h' := (writeIgnoring_track _ _).2 h; subst h'; subst hb; rfl⟩
  | aud g =>
    cases g <;> first
      | exact plain_iff _ _ _ rfl
      | exact ⟨fun h => by cases h; exact (marshalRates_iff _ _).1 rfl,
          fun h => by have h' := (marshalRates_iff _ _).2 h; subst h'; rfl⟩
  | sim g =>
    cases g <;> first
      | exact plain_iff _ _ _ rfl
      | exact ⟨fun h => by cases h; exact (marshalButtons_iff _ _).1 rfl,
          fun h => by have h' := (marshalButtons_iff _ _).2 h; subst h'; rfl⟩

theorem dispTrack_form (s : DispTrack) : ∃ b, DispTrackForm s b := by
  cases s with
  | caps x y z => exact ⟨_, (binWrite_iff [.u32, .u32, .u16] (x, y, z, ()) _).1 rfl⟩
  | chapterTimeName t s => exact ⟨_, _, (encU32_iff t _).2 rfl, rfl⟩
  | lyrics x i s => exact ⟨_, _, fieldBytes_enc (f := .u16) rfl i, rfl⟩
  | _ => exact ⟨_, rfl⟩

theorem sent_iff_expressible (t : TypeId) (v : t.Val) (b : Bytes) (h : SentForm t v b) :
    WireForm t v b ↔ Expressible t v := by
  cases t with
  | gen g =>
    cases g <;> first
      | exact tokens_exact_iff h
      | exact acks_exact_iff h
      | exact ⟨fun _ => trivial, fun _ => h⟩
  | ext g => cases g <;> exact ⟨fun _ => trivial, fun _ => h⟩
  | disp g =>
    cases g
    case RetIndexedPlayingTrackInfo =>
      obtain ⟨r, h1, rfl⟩ := h
      constructor
      · rintro ⟨r', h2, h3⟩
        cases h3
        intro c hc ht
        rcases h1 with ⟨h1, _⟩ | ⟨_, h1⟩
        · exact absurd ht h1
        · exact dispTrack_emptyText ht h2 hc h1
      · intro h3
        rcases h1 with ⟨_, h1⟩ | ⟨ht, rfl⟩
        · exact ⟨r, h1, rfl⟩
        · obtain ⟨c, hc⟩ := dispTrack_form v.2.1
          rw [h3 c hc ht] at hc
          exact ⟨[], hc, rfl⟩
    all_goals exact ⟨fun _ => trivial, fun _ => h⟩
  | aud g => cases g <;> exact ⟨fun _ => trivial, fun _ => h⟩
  | sim g => cases g <;> exact ⟨fun _ => trivial, fun _ => h⟩

theorem wire_sent (t : TypeId) (v : t.Val) (b : Bytes) (hx : Expressible t v) (h : WireForm t v b) :
    SentForm t v b := by
  cases t with
  | gen g =>
    cases g <;> first
      | exact tokens_mod h
      | exact acks_mod h
      | exact h
  | ext g => cases g <;> exact h
  | disp g =>
    cases g
    case RetIndexedPlayingTrackInfo =>
      obtain ⟨r, h1, rfl⟩ := h
      refine ⟨r, ?_, rfl⟩
      by_cases ht : carriesText v.2.1
      · exact .inr ⟨ht, hx r h1 ht⟩
      · exact .inl ⟨ht, h1⟩
    all_goals exact h
  | aud g => cases g <;> exact h
  | sim g => cases g <;> exact h

/-- C90, for the values the code can express: the bytes sent are the wire form, and a value is refused exactly if it has none.
Missing: lists and elements of more than 255, track infos of the display remote that carry a text. -/
theorem C90_wire_form_partial (t : TypeId) (v : t.Val) (hx : Expressible t v) (b : Bytes) :
    encodePayload (.ptr t v) = .ok b ↔ WireForm t v b := by
  rw [C90_sent]
  exact ⟨fun h => (sent_iff_expressible t v b h).2 hx, wire_sent t v b hx⟩

/-- C90. These values are exactly the ones sent correctly. -/
theorem C90_correct_iff (t : TypeId) (v : t.Val) (b : Bytes) (h : encodePayload (.ptr t v) = .ok b) :
    WireForm t v b ↔ Expressible t v := sent_iff_expressible t v b ((C90_sent t v b).1 h)

example (b : Bytes) (h : encodePayload (.ptr (.gen .EndIDPS) ((0 : UInt8), ())) = .ok b) :
    WireForm (.gen .EndIDPS) ((0 : UInt8), ()) b ↔ Expressible (.gen .EndIDPS) ((0 : UInt8), ()) :=
  C90_correct_iff _ _ _ h

/-- C90. A value has at most one wire form. -/
theorem C90_unique (t : TypeId) (v : t.Val) (hx : Expressible t v) (b c : Bytes) (hb : WireForm t v b)
    (hc : WireForm t v c) : b = c := by
  have h1 := (C90_wire_form_partial t v hx b).2 hb
  rw [(C90_wire_form_partial t v hx c).2 hc] at h1
  cases h1; rfl

/-- C90 is false of the code: the text of a track info is not sent, and the length
in front of a token of 256 bytes says 0. -/
theorem C90_fails :
    (∃ (v : (TypeId.disp .RetIndexedPlayingTrackInfo).Val) (b : Bytes), encodePayload (.ptr _ v) = .ok b ∧ ¬ WireForm _ v b) ∧
    (∃ (v : (TypeId.gen .SetFIDTokenValues).Val) (b : Bytes), encodePayload (.ptr _ v) = .ok b ∧ ¬ WireForm _ v b) := by
  refine ⟨⟨(0x02, .artist [0x41], ()), [0x02], rfl, fun h => ?_⟩,
    ⟨([⟨⟨0x77, 0x00⟩, .raw (List.replicate 254 0)⟩], ()), _, rfl, fun h => ?_⟩⟩
  · have := ((C90_correct_iff (.disp .RetIndexedPlayingTrackInfo) _ _ rfl).1 h) _ rfl trivial
    simp at this
  · have := ((C90_correct_iff (.gen .SetFIDTokenValues) _ _ rfl).1 h).2 _ List.mem_cons_self
    exact absurd this (by simp only [TokenFits, List.length_replicate]; omega)

/-- A token list, an acknowledgement list without body and a track info. -/
example : WireForm (.gen .SetFIDTokenValues) ([⟨⟨0x00, 0x03⟩, .ipodPref 1 2 3⟩, ⟨⟨0x00, 0x00⟩, .identify [0, 4] 5 6⟩], ())
    [0x02, 0x05, 0x00, 0x03, 1, 2, 3, 0x0D, 0x00, 0x00, 2, 0, 4, 0, 0, 0, 5, 0, 0, 0, 6] :=
  (C90_wire_form_partial (.gen .SetFIDTokenValues) _ ⟨by decide, by simp [TokenFits]⟩ _).1 rfl

example : WireForm (.ext .ReturnIndexedPlayingTrackInfo) (0x05, .bytes [0x41, 0x00], ()) [0x05, 0x41, 0x00] :=
  (C90_wire_form_partial (.ext .ReturnIndexedPlayingTrackInfo) _ trivial _).1 rfl

example : Expressible (.disp .RetIndexedPlayingTrackInfo) (0x00, .caps 1 2 3, ()) :=
  fun _ _ h => absurd h id

example : encodePayload (.ptr (.gen .RetFIDTokenValueACKs) ([⟨⟨0x00, 0x00⟩, none⟩], ())) = .error Err.unknownAck := rfl

end Props
