import Verif.Lemmas.Toolchain

/-! # Property C97: independence of the Go release -/

namespace Props
open Go Spec Ipod

/-- C97. Built with a current release, decoder and server are the ones of all other properties. -/
theorem C97_current {σ : Type} (D : Device σ) (clock : Clock) (reads : List (Except Err Slice)) (s : Srv σ) :
    unmarshalCmdT false = unmarshalCmd ∧ processFramesT false D clock reads s = processFrames D clock reads s := by
  refine ⟨unmarshalCmdT_new, ?_⟩
  induction reads generalizing s with
  | nil => rfl
  | cons x reads ih =>
    cases x with
    | error e => cases e <;> simp only [processFramesT, processFrames, ih]
    | ok f => simp only [processFramesT, processFrames, processFrameT_new, ih]

/-- C97. Built with an older release, the decoder panics on the packets it cannot survive and on those with a token of
unknown kind, and reads all others in the same way. -/
theorem C97_decoder (m : Bool) (pkt : Bytes) :
    (unmarshalCmdT true m pkt = .panic ↔ Malformed m pkt ∨ UnknownKind m pkt) ∧
    (¬ UnknownKind m pkt → unmarshalCmdT true m pkt = unmarshalCmd m pkt) :=
  ⟨unmarshalCmdT_panics m pkt, unmarshalCmdT_other⟩

/-- C97. A session the older build survives is the same in both. -/
theorem C97_survived {σ : Type} (D : Device σ) (clock : Clock) (reads : List (Except Err Slice)) (s : Srv σ)
    (x : Srv σ × List Bytes) (h : processFramesT true D clock reads s = .ret x) :
    processFrames D clock reads s = .ret x := by
  induction reads generalizing s x with
  | nil => exact h
  | cons r reads ih =>
    cases r with
    | error e =>
      cases e with
      | eof => exact h
      | _ => exact ih s x h
    | ok f =>
      simp only [processFramesT] at h
      cases hp : processFrameT true D clock s f with
      | panic => rw [hp] at h; cases h
      | ret y =>
        rw [hp] at h
        simp only [Out.bind_ret] at h
        cases hq : processFramesT true D clock reads y.1 with
        | panic => rw [hq] at h; cases h
        | ret z =>
          rw [hq] at h
          cases h
          simp only [processFrames, processFrameT_ret hp, Out.bind_ret, ih _ _ hq]

theorem processFramesT_cons_error {σ : Type} (D : Device σ) (clock : Clock) (reads : List (Except Err Slice)) (s : Srv σ)
    {e : Err} (he : e ≠ .eof) :
    processFramesT true D clock (.error e :: reads) s = processFramesT true D clock reads s := by
  cases e with
  | eof => exact absurd rfl he
  | _ => rfl

theorem processFrames_cons_error {σ : Type} (D : Device σ) (clock : Clock) (reads : List (Except Err Slice)) (s : Srv σ)
    {e : Err} (he : e ≠ .eof) :
    processFrames D clock (.error e :: reads) s = processFrames D clock reads s := C57_error_skipped D clock [] reads e he s

/-- C97. The older build panics exactly in the sessions that come to a frame that overruns or contains a packet that is
malformed or has a token of unknown kind. -/
theorem C97_panics_iff {σ : Type} (D : Device σ) (clock : Clock) (reads : List (Except Err Slice)) (s : Srv σ) :
    processFramesT true D clock reads s = .panic ↔ ComesTo OldFatal (processFrames D clock) reads s := by
  constructor
  · intro h
    induction reads generalizing s with
    | nil => cases h
    | cons x reads ih =>
      cases x with
      | error e =>
        by_cases he : e = .eof
        · subst he; cases h
        · rw [processFramesT_cons_error D clock reads s he] at h
          obtain ⟨pre, f, rest, s1, w, ps, b, rfl, h1, h2, h3⟩ := ih s h
          refine ⟨.error e :: pre, f, rest, s1, w, ps, b, rfl, ?_, ?_, h3⟩
          · simpa using ⟨fun h => he h.symm, h1⟩
          · rw [processFrames_cons_error D clock pre s he, h2]
      | ok f =>
        simp only [processFramesT] at h
        cases hp : processFrameT true D clock s f with
        | panic =>
          obtain ⟨ps, b, h1, h2⟩ := (processFrameT_panic s f).1 hp
          exact ⟨[], f, reads, s, [], ps, b, rfl, by simp, rfl, h1, h2⟩
        | ret x =>
          rw [hp] at h
          simp only [Out.bind_ret] at h
          cases hq : processFramesT true D clock reads x.1 with
          | ret y => rw [hq] at h; cases h
          | panic =>
            obtain ⟨pre, f', rest, s1, w, ps, b, rfl, h1, h2, h3⟩ := ih x.1 hq
            refine ⟨.ok f :: pre, f', rest, s1, x.2 ++ w, ps, b, rfl, by simpa using h1, ?_, h3⟩
            simp only [processFrames, processFrameT_ret hp, Out.bind_ret, h2]
  · rintro ⟨pre, f, rest, s1, w, ps, b, rfl, h1, h2, h3⟩
    induction pre generalizing s w with
    | nil =>
      cases h2
      simp only [List.nil_append, processFramesT, (processFrameT_panic s1 f).2 ⟨ps, b, h3⟩, Out.bind_panic]
    | cons x pre ih =>
      simp only [List.mem_cons, not_or] at h1
      cases x with
      | error e =>
        have he : e ≠ .eof := fun h => h1.1 (by rw [h])
        rw [processFrames_cons_error D clock pre s he] at h2
        rw [List.cons_append, processFramesT_cons_error D clock _ s he]
        exact ih s w h1.2 h2
      | ok g =>
        rw [List.cons_append, processFramesT]
        cases hp : processFrameT true D clock s g with
        | panic => rfl
        | ret y =>
          simp only [processFrames, processFrameT_ret hp, Out.bind_ret] at h2
          cases hq : processFrames D clock pre y.1 with
          | panic => rw [hq] at h2; cases h2
          | ret z =>
            rw [hq] at h2
            cases h2
            rw [Out.bind_ret, ih y.1 z.2 h1.2 hq]
            rfl

/-- C97, part: a session that never comes to a packet with a token of unknown kind is the same in both builds.
Missing: the other sessions, see `C97_panics_iff` and `C97_fails`. -/
theorem C97_same_partial {σ : Type} (D : Device σ) (clock : Clock) (reads : List (Except Err Slice)) (s : Srv σ)
    (h : ∀ pre f rest s1 w ps b ps1 p ps2, reads = pre ++ .ok f :: rest → .error .eof ∉ pre →
      processFrames D clock pre s = .ret (s1, w) → Scan f.spare f.data ps b → ps = ps1 ++ p :: ps2 →
      ¬ UnknownKind (modeAfter s1.mode (ps1.map .receive)) p) :
    processFramesT true D clock reads s = processFrames D clock reads s := by
  cases ho : processFramesT true D clock reads s with
  | ret x => exact (C97_survived D clock reads s x ho).symm
  | panic =>
    obtain ⟨pre, f, rest, s1, w, ps, b, h1, h2, h3, h4, h5⟩ := (C97_panics_iff D clock reads s).1 ho
    refine ((C54_panics_iff D clock reads s).2 ⟨pre, f, rest, s1, w, ps, b, h1, h2, h3, h4, ?_⟩).symm
    rcases h5 with h5 | ⟨ps1, p, ps2, h5, h6 | h6⟩
    · exact .inl h5
    · exact .inr ⟨ps1, p, ps2, h5, h6⟩
    · exact absurd h6 (h pre f rest s1 w ps b ps1 p ps2 h1 h2 h3 h4 h5)

theorem listT_known (n : Nat) (r : Bytes) (l : List FIDTokenValue)
    (h : unmarshalList (unmarshalTokenValueT true) n r = .ret (.ok l)) : ∀ v ∈ l, ∃ b, (ackFIDTokenValue v).ack = some b := by
  induction n generalizing r l with
  | zero => cases h; simp
  | succ n ih =>
    cases r with
    | nil => cases h
    | cons len r =>
      simp only [unmarshalList] at h
      cases hv : unmarshalTokenValueT true (r.take len.toNat) with
      | panic => rw [hv] at h; cases h
      | ret x =>
        rw [hv] at h
        cases x with
        | error e => cases h
        | ok v =>
          simp only [Out.bind_ret] at h
          cases hl : unmarshalList (unmarshalTokenValueT true) n (r.drop len.toNat) with
          | panic => rw [hl] at h; cases h
          | ret y =>
            rw [hl] at h
            cases y with
            | error e => cases h
            | ok vs =>
              cases h
              intro w hw
              rcases List.mem_cons.1 hw with rfl | hw
              · by_cases hu : ∃ a b body, r.take len.toNat = a :: b :: body ∧ ¬ knownTokenID ⟨a, b⟩
                · obtain ⟨a, b, body, h1, h2⟩ := hu
                  rw [unmarshalTokenValueT_unknown h1 h2] at hv; cases hv
                · rw [unmarshalTokenValueT_known fun a b body h => Classical.byContradiction fun h2 =>
                    hu ⟨a, b, body, h, h2⟩, unmarshalTokenValue_iff] at hv
                  obtain ⟨body, h1, h2⟩ := hv
                  obtain ⟨id, t⟩ := w
                  cases t with
                  | nil => exact h2.elim
                  | raw b => exact absurd ⟨_, _, _, h1, h2.1⟩ hu
                  | _ => exact ⟨_, rfl⟩
              · exact ih _ _ hl w hw

/-- C97. The older build never comes to encode an acknowledgement without body, where it would panic as well: all it
acknowledges is encoded alike. -/
theorem C97_acknowledged (old : Bool) (d : Bytes) (l : List FIDTokenValue) (h : unmarshalTokensT true d = .ret (.ok l)) :
    ∀ a ∈ ackFIDTokenValues l, marshalAckT old a = .ret (marshalAck a) := by
  intro a ha
  obtain ⟨v, hv, rfl⟩ := List.mem_map.1 ha
  have : ∃ b, (ackFIDTokenValue v).ack = some b := by
    cases d with
    | nil => cases h
    | cons n r => exact listT_known _ _ _ h v hv
  obtain ⟨b, hb⟩ := this
  simp only [marshalAckT, marshalAck, hb]

example (old : Bool) : ∃ l, unmarshalTokensT true [0x01, 0x04, 0x00, 0x08, 0x01, 0x02] = .ret (.ok l) ∧
    ∀ a ∈ ackFIDTokenValues l, marshalAckT old a = .ret (marshalAck a) :=
  ⟨_, rfl, C97_acknowledged old [0x01, 0x04, 0x00, 0x08, 0x01, 0x02] _ rfl⟩

/-- C97. Encoding an acknowledgement panics exactly in the older build and for one without body, which the current one refuses;
all others give the same bytes in both. -/
theorem C97_ack_panics (a : FIDTokenValueACK) :
    (∀ old, marshalAckT old a = .panic ↔ old = true ∧ a.ack = none) ∧
    (a.ack = none → marshalAckT false a = .ret (.error Err.unknownAck)) ∧
    ∀ old b, a.ack = some b → marshalAckT old a = .ret (.ok (a.id.fidType :: a.id.fidSubtype :: b)) := by
  refine ⟨fun old => ?_, fun h => ?_, fun old b h => ?_⟩
  · cases h : a.ack <;> cases old <;> simp [marshalAckT, h, sizeOfNil, Bind.bind, Out.bind]
  · simp [marshalAckT, h, sizeOfNil, Bind.bind, Out.bind]
  · simp [marshalAckT, h]

example : marshalAckT true ⟨⟨0x00, 0x06⟩, none⟩ = .panic ∧
    marshalAckT true ⟨⟨0x00, 0x02⟩, some [0x00]⟩ = .ret (.ok [0x00, 0x02, 0x00]) := by decide

/-- A token of kind 00 06 in a frame of its own. -/
theorem C97_witness : Scan [] [0x55, 0x06, 0x00, 0x39, 0x01, 0x02, 0x00, 0x06, 0xB8] [[0x00, 0x39, 0x01, 0x02, 0x00, 0x06]] false :=
  .packet (j := []) (w := [0x55, 0x06, 0x00, 0x39, 0x01, 0x02, 0x00, 0x06, 0xB8]) (rest := []) (by decide)
    ⟨[0x06], 0xB8, .inl ⟨0x06, by decide, by decide, rfl⟩, rfl, by decide⟩ (.done (by decide))

theorem C97_witness_unknown : UnknownKind false [0x00, 0x39, 0x01, 0x02, 0x00, 0x06] :=
  ⟨[], 0x01, [0x02, 0x00, 0x06], rfl, rfl, .here (n := 0) (len := 0x02) (a := 0x00) (b := 0x06) (body := []) rfl (by decide)⟩

/-- C97 is false: from one frame with a token of kind 00 06 the older build dies, the current one does not. -/
theorem C97_fails {σ : Type} (D : Device σ) (clock : Clock) (dev : σ) :
    processFramesT true D clock [.ok ⟨[0x55, 0x06, 0x00, 0x39, 0x01, 0x02, 0x00, 0x06, 0xB8], []⟩] (Srv.init dev) = .panic ∧
    ∃ x, processFrames D clock [.ok ⟨[0x55, 0x06, 0x00, 0x39, 0x01, 0x02, 0x00, 0x06, 0xB8], []⟩] (Srv.init dev) = .ret x := by
  constructor
  · exact (C97_panics_iff _ _ _ _).2 ⟨[], _, [], _, [], _, _, rfl, by simp, rfl, C97_witness,
      .inr ⟨[], _, [], rfl, .inr C97_witness_unknown⟩⟩
  · refine C54_survives_partial D clock _ ?_ _
    intro f hf
    simp only [List.mem_cons, Except.ok.injEq, List.not_mem_nil, or_false] at hf
    subst hf
    refine ⟨_, C97_witness, ?_⟩
    rintro p hp m ⟨trx, ht, ⟨b, h, _⟩ | ⟨n, r, h, hb⟩⟩
    · simp at hp; subst hp; simp at h
    · simp only [List.mem_cons, List.not_mem_nil, or_false] at hp
      subst hp
      cases m with
      | false =>
        simp only [Bool.false_eq_true, if_false, List.length_eq_zero_iff] at ht
        subst ht
        cases h
        cases hb with
        | here h => exact absurd h (by decide)
        | later _ h => cases h
      | true =>
        match trx, ht with
        | [x, y], _ => cases h; cases hb

/-- An accepted token in front of an unknown one, with transactions on. -/
example : UnknownKind true [0x00, 0x39, 0x00, 0x07, 0x02, 0x04, 0x00, 0x08, 0x01, 0x02, 0x03, 0x02, 0x00, 0x00] :=
  ⟨[0x00, 0x07], 0x02, [0x04, 0x00, 0x08, 0x01, 0x02, 0x03, 0x02, 0x00, 0x00], rfl, rfl,
    .later (len := 0x04) ⟨0x00, 0x08, [0x01, 0x02], rfl, Nat.le_refl 2⟩ (.here (len := 0x03) (a := 0x02) (b := 0x00) (body := [0x00]) rfl (by decide))⟩

example : ∃ l, unmarshalTokensT true [0x01, 0x04, 0x00, 0x08, 0x01, 0x02] = .ret (.ok l) ∧ l ≠ [] := ⟨_, rfl, by simp⟩

/-- A session without tokens. -/
example {σ : Type} (D : Device σ) (clock : Clock) (s : Srv σ) :
    processFramesT true D clock [.ok ⟨[0x55, 0x02, 0x00, 0x07, 0xF7], []⟩] s =
      processFrames D clock [.ok ⟨[0x55, 0x02, 0x00, 0x07, 0xF7], []⟩] s := by
  refine C97_same_partial D clock _ s fun pre f rest s1 w ps b ps1 p ps2 h1 _ _ h4 h5 ⟨trx, n, r, _, h6, _⟩ => ?_
  have hf : f = ⟨[0x55, 0x02, 0x00, 0x07, 0xF7], []⟩ := by
    cases pre with
    | nil => cases h1; rfl
    | cons _ pre => cases pre <;> cases h1
  subst hf
  have : Scan [] [0x55, 0x02, 0x00, 0x07, 0xF7] [[0x00, 0x07]] false :=
    .packet (j := []) (w := [0x55, 0x02, 0x00, 0x07, 0xF7]) (rest := []) (by decide)
      ⟨[2], 0xF7, .inl ⟨2, by decide, rfl, rfl⟩, rfl, by decide⟩ (.done (by decide))
  obtain ⟨rfl, rfl⟩ := scan_unique h4 this
  have hm : p ∈ [[(0x00 : UInt8), 0x07]] := h5 ▸ by simp
  rw [List.mem_singleton] at hm
  rw [hm] at h6
  simp at h6

end Props
