import Verif.Lemmas.Server
import Verif.Props.Replies
import Verif.Props.Hid

/-! # Properties C53–C57, C68: the server loop -/

namespace Props
open Go Spec Ipod Ipod.Hid

/-! ## C68 -/

/-- C68. Whatever is in a frame: the reader delivers exactly the packets of its scan, in order, then `io.EOF` for ever. -/
theorem C68_delivers_scan (spare d : Bytes) (ps : List Bytes) (h : Scan spare d ps false) :
    ∃ xs : List PktResult, xs.filterMap Except.toOption = ps ∧ (∀ x ∈ xs, x ≠ .error .eof) ∧
      ∀ k, callReader (xs.length + k) ⟨d, spare⟩ = .ret (xs ++ List.replicate k (.error .eof)) := by
  generalize hb : false = b at h
  induction h with
  | done hf => exact ⟨[], rfl, by simp, fun k => by simpa using callReader_filler k _ spare hf⟩
  | crash => cases hb
  | @packet j w rest p ps b hj hw hs ih =>
    obtain ⟨xs, h1, h2, h3⟩ := ih hb
    refine ⟨.ok p :: xs, by simp [h1, Except.toOption], by simpa using h2, fun k => ?_⟩
    rw [List.length_cons, Nat.add_right_comm, callReader, readPacket_isPacket j w p rest spare hj hw]
    simp only [Out.bind_ret, h3 k, List.cons_append]
  | skip hj hp ho hs ih =>
    obtain ⟨xs, h1, h2, h3⟩ := ih hb
    obtain ⟨e, he, r⟩ := readPacket_skip hj hp ho
    refine ⟨.error e :: xs, (List.filterMap_cons_none rfl).trans h1, by simpa using ⟨he, h2⟩, fun k => ?_⟩
    rw [List.length_cons, Nat.add_right_comm, callReader, r]
    simp only [Out.bind_ret, h3 k, List.cons_append]

example : ∃ xs : List PktResult, xs.filterMap Except.toOption = [[7]] ∧ (∀ x ∈ xs, x ≠ .error .eof) ∧
    ∀ k, callReader (xs.length + k) ⟨[9, 0x55, 1, 7, 248], []⟩ = .ret (xs ++ List.replicate k (.error .eof)) :=
  C68_delivers_scan [] [9, 0x55, 1, 7, 248] [[7]]
    (.packet (j := [9]) (w := [0x55, 1, 7, 248]) (rest := []) (by decide) ⟨[1], 248, .inl ⟨1, by decide, rfl, rfl⟩, rfl, by decide⟩
      (.done (by decide)))

/-- C68. Every frame has exactly one scan. -/
theorem C68_scan_exists_unique (spare d : Bytes) :
    ∃ ps b, Scan spare d ps b ∧ ∀ ps' b', Scan spare d ps' b' → ps' = ps ∧ b' = b := by
  obtain ⟨ps, b, h⟩ := scan_total spare d
  exact ⟨ps, b, h, fun ps' b' h' => scan_unique h' h⟩

/-- C68. If the scan runs into an overrunning packet, so does the reader: it delivers the packets before it and panics. -/
theorem C68_crash (spare d : Bytes) (ps : List Bytes) (h : Scan spare d ps true) :
    ∃ xs : List PktResult, xs.filterMap Except.toOption = ps ∧ callReader xs.length ⟨d, spare⟩ = .ret xs ∧
      callReader (xs.length + 1) ⟨d, spare⟩ = .panic := by
  generalize hb : true = b at h
  induction h with
  | done => cases hb
  | crash hj ho => exact ⟨[], rfl, rfl, by simp [callReader, readPacket_overrun hj ho]⟩
  | @packet j w rest p ps b hj hw hs ih =>
    obtain ⟨xs, h1, h2, h3⟩ := ih hb
    refine ⟨.ok p :: xs, by simp [h1, Except.toOption], ?_, ?_⟩
    · rw [List.length_cons, callReader, readPacket_isPacket j w p rest spare hj hw]
      simp only [Out.bind_ret, h2]
    · rw [List.length_cons, callReader, readPacket_isPacket j w p rest spare hj hw]
      simp only [Out.bind_ret, h3, Out.bind_panic]
  | skip hj hp ho hs ih =>
    obtain ⟨xs, h1, h2, h3⟩ := ih hb
    obtain ⟨e, he, r⟩ := readPacket_skip hj hp ho
    refine ⟨.error e :: xs, (List.filterMap_cons_none rfl).trans h1, ?_, ?_⟩
    · rw [List.length_cons, callReader, r]
      simp only [Out.bind_ret, h2]
    · rw [List.length_cons, callReader, r]
      simp only [Out.bind_ret, h3, Out.bind_panic]

example : ∃ xs : List PktResult, xs.filterMap Except.toOption = [[7]] ∧
    callReader xs.length ⟨[0x55, 1, 7, 248, 9, 0x55, 0xff, 1, 2], [1, 2]⟩ = .ret xs ∧
    callReader (xs.length + 1) ⟨[0x55, 1, 7, 248, 9, 0x55, 0xff, 1, 2], [1, 2]⟩ = .panic :=
  C68_crash [1, 2] [0x55, 1, 7, 248, 9, 0x55, 0xff, 1, 2] [[7]]
    (.packet (j := []) (w := [0x55, 1, 7, 248]) (by decide) ⟨[1], 248, .inl ⟨1, by decide, rfl, rfl⟩, rfl, by decide⟩
      (.crash (j := [9]) (by decide) ⟨[0xff], [1, 2], 255, rfl, .inl ⟨0xff, by decide, rfl, rfl⟩, by decide, by decide, .inl (by decide)⟩))

theorem not_packetHere {d : Bytes} (spare : Bytes) {f : Slice} {e : Err}
    (h : readPacket ⟨0x55 :: d, spare⟩ = .ret (f, .error e)) : ¬ PacketHere (0x55 :: d) := by
  rintro ⟨p, w, rest, hw, e'⟩
  rw [e', show w ++ rest = [] ++ w ++ rest from rfl, readPacket_isPacket [] w p rest spare (by decide) hw] at h
  cases h

theorem not_overruns {d spare : Bytes} {x : Slice × PktResult} (h : readPacket ⟨0x55 :: d, spare⟩ = .ret x) :
    ¬ Overruns spare d := by
  intro ho
  have := readPacket_overrun (j := []) (by decide) ho
  rw [show ([] : Bytes) ++ 0x55 :: d = 0x55 :: d from rfl, h] at this
  cases this

/-- A packet with a wrong checksum, whose body contains a packet; behind it another one. -/
example : Scan [] [0x00, 0x55, 4, 0x55, 1, 7, 248, 0x55, 1, 8, 247] [[7], [8]] false :=
  .skip (j := [0x00]) (by decide) (not_packetHere (f := ⟨[4, 0x55, 1, 7, 248, 0x55, 1, 8, 247], []⟩) (e := Err.checksum) [] (by decide))
    (not_overruns (x := (⟨[4, 0x55, 1, 7, 248, 0x55, 1, 8, 247], []⟩, .error Err.checksum)) (by decide))
    (.packet (j := [4]) (w := [0x55, 1, 7, 248]) (by decide) ⟨[1], 248, .inl ⟨1, by decide, rfl, rfl⟩, rfl, by decide⟩
      (.packet (j := []) (w := [0x55, 1, 8, 247]) (rest := []) (by decide) ⟨[1], 247, .inl ⟨1, by decide, rfl, rfl⟩, rfl, by decide⟩
        (.done (by decide))))
example : Scan [1, 2] [0x55, 1, 7, 248, 9, 0x55, 0xff, 1, 2] [[7]] true :=
  .packet (j := []) (w := [0x55, 1, 7, 248]) (by decide) ⟨[1], 248, .inl ⟨1, by decide, rfl, rfl⟩, rfl, by decide⟩
    (.crash (j := [9]) (by decide) ⟨[0xff], [1, 2], 255, rfl, .inl ⟨0xff, by decide, rfl, rfl⟩, by decide, by decide, .inl (by decide)⟩)

/-! ## C57 -/

/-- C57. A read error other than `io.EOF` changes nothing: the server goes on as if the read had not happened. -/
theorem C57_error_skipped {σ : Type} (D : Device σ) (clock : Clock) (pre rest : List (Except Err Slice)) (e : Err)
    (he : e ≠ .eof) (s : Srv σ) :
    processFrames D clock (pre ++ .error e :: rest) s = processFrames D clock (pre ++ rest) s := by
  induction pre generalizing s with
  | nil =>
    cases e with
    | eof => exact absurd rfl he
    | _ => rfl
  | cons x pre ih =>
    cases x with
    | error e' => cases e' <;> simp only [List.cons_append, processFrames, ih]
    | ok f =>
      simp only [List.cons_append, processFrames]
      cases processFrame D clock s f with
      | panic => rfl
      | ret x => simp only [Out.bind_ret, ih]

example {σ : Type} (D : Device σ) (clock : Clock) (s : Srv σ) :
    processFrames D clock ([.ok ⟨[1], []⟩] ++ .error .noProgress :: [.ok ⟨[2], []⟩]) s =
      processFrames D clock ([.ok ⟨[1], []⟩] ++ [.ok ⟨[2], []⟩]) s :=
  C57_error_skipped D clock [.ok ⟨[1], []⟩] [.ok ⟨[2], []⟩] .noProgress (by decide) s

/-- C57. `io.EOF` ends the server; what would come behind it is not looked at. -/
theorem C57_eof_ends {σ : Type} (D : Device σ) (clock : Clock) (pre rest : List (Except Err Slice)) (s : Srv σ) :
    processFrames D clock (pre ++ .error .eof :: rest) s = processFrames D clock pre s := by
  induction pre generalizing s with
  | nil => rfl
  | cons x pre ih =>
    cases x with
    | error e' => cases e' <;> simp only [List.cons_append, processFrames, ih]
    | ok f =>
      simp only [List.cons_append, processFrames]
      cases processFrame D clock s f with
      | panic => rfl
      | ret x => simp only [Out.bind_ret, ih]

/-- C57. Before an `io.EOF`, the server goes through the reads one by one: a session is the part up to any point and the
rest from the state reached there. -/
theorem C57_keeps_reading {σ : Type} (D : Device σ) (clock : Clock) (pre rest : List (Except Err Slice))
    (h : .error .eof ∉ pre) (s : Srv σ) :
    processFrames D clock (pre ++ rest) s =
      processFrames D clock pre s >>= fun x => processFrames D clock rest x.1 >>= fun y => .ret (y.1, x.2 ++ y.2) := by
  induction pre generalizing s with
  | nil =>
    simp only [List.nil_append, processFrames, Out.bind_ret]
    cases processFrames D clock rest s <;> rfl
  | cons x pre ih =>
    simp only [List.mem_cons, not_or] at h
    cases x with
    | error e' =>
      cases e' with
      | eof => exact absurd rfl h.1
      | _ => simp only [List.cons_append, processFrames, ih h.2]
    | ok f =>
      simp only [List.cons_append, processFrames]
      cases processFrame D clock s f with
      | panic => rfl
      | ret x =>
        simp only [Out.bind_ret, ih h.2]
        cases processFrames D clock pre x.1 with
        | panic => rfl
        | ret y =>
          simp only [Out.bind_ret]
          cases processFrames D clock rest y.1 with
          | panic => rfl
          | ret z => simp [List.append_assoc]

example {σ : Type} (D : Device σ) (clock : Clock) (s : Srv σ) :
    processFrames D clock ([.error .noProgress, .ok ⟨[1], []⟩] ++ [.error .eof]) s =
      processFrames D clock [.error .noProgress, .ok ⟨[1], []⟩] s >>= fun x =>
        processFrames D clock [.error .eof] x.1 >>= fun y => .ret (y.1, x.2 ++ y.2) :=
  C57_keeps_reading D clock [.error .noProgress, .ok ⟨[1], []⟩] [.error .eof] (by decide) s

example : (Err.noProgress ≠ .eof) ∧ (.error .eof : Except Err Slice) ∉ [.error .noProgress, .ok ⟨[0x55], []⟩] := by decide

/-! ## C54 -/

theorem decoded_mode {m m' : Bool} {ps : List Bytes} {cmds : List Command} (h : Decoded m ps m' cmds) :
    m' = modeAfter m (ps.map .receive) := by
  refine C16_mode_last_switch m m' _ ?_
  induction h with
  | nil => rfl
  | cons hu _ ih => simp only [List.map_cons, runSerde, hu, Out.bind_ret, ih]

theorem malformed_iff (m : Bool) (pkt : Bytes) : unmarshalCmd m pkt = .panic ↔ Malformed m pkt :=
  C18_unmarshal_panics_iff_partial m pkt

/-- One frame crashes the server iff its scan ends at an overrunning packet or contains a packet malformed in the mode in
force when it is reached. -/
theorem frame_panics_iff {σ : Type} {D : Device σ} {clock : Clock} (s : Srv σ) (f : Slice) :
    processFrame D clock s f = .panic ↔
      ∃ ps b, Scan f.spare f.data ps b ∧
        (b = true ∨ ∃ ps1 p ps2, ps = ps1 ++ p :: ps2 ∧ Malformed (modeAfter s.mode (ps1.map .receive)) p) := by
  obtain ⟨ps, b, hs⟩ := scan_total f.spare f.data
  have h1 := processFrame_panic (D := D) (clock := clock) (s := s) hs
  have key : (∃ ps1 p ps2 m1 cmds, ps = ps1 ++ p :: ps2 ∧ Decoded s.mode ps1 m1 cmds ∧ unmarshalCmd m1 p = .panic) ↔
      ∃ ps1 p ps2, ps = ps1 ++ p :: ps2 ∧ Malformed (modeAfter s.mode (ps1.map .receive)) p := by
    constructor
    · rintro ⟨ps1, p, ps2, m1, cmds, e, hd, hu⟩
      exact ⟨ps1, p, ps2, e, by rw [← decoded_mode hd]; exact (malformed_iff _ _).1 hu⟩
    · rintro ⟨ps1, p, ps2, rfl, hm⟩
      cases hd : decodeAll s.mode ps1 with
      | panic =>
        obtain ⟨a, q, b', m1, cmds, rfl, h2, h3⟩ := decodeAll_panic.1 hd
        exact ⟨a, q, b' ++ p :: ps2, m1, cmds, by simp, h2, h3⟩
      | ret x =>
        have hd := decodeAll_ret.1 hd
        exact ⟨ps1, p, ps2, x.1, x.2, rfl, hd, by rw [decoded_mode hd]; exact (malformed_iff _ _).2 hm⟩
  rw [show f = ⟨f.data, f.spare⟩ from rfl, h1, key]
  constructor
  · intro h; exact ⟨ps, b, hs, h⟩
  · rintro ⟨ps', b', hs', h⟩
    obtain ⟨rfl, rfl⟩ := scan_unique hs hs'
    exact h

/-- C54, exact characterisation: the server panics iff at some point of the session, before any `io.EOF`, a frame comes
whose scan ends at an overrunning packet or contains a packet that is malformed in the mode then in force. -/
theorem C54_panics_iff {σ : Type} (D : Device σ) (clock : Clock) (reads : List (Except Err Slice)) (s : Srv σ) :
    processFrames D clock reads s = .panic ↔
      ∃ pre f rest s1 w ps b, reads = pre ++ .ok f :: rest ∧ .error .eof ∉ pre ∧
        processFrames D clock pre s = .ret (s1, w) ∧ Scan f.spare f.data ps b ∧
        (b = true ∨ ∃ ps1 p ps2, ps = ps1 ++ p :: ps2 ∧ Malformed (modeAfter s1.mode (ps1.map .receive)) p) := by
  constructor
  · intro h
    induction reads generalizing s with
    | nil => cases h
    | cons x reads ih =>
      cases x with
      | error e =>
        by_cases he : e = .eof
        · subst he; cases h
        · have h' := C57_error_skipped D clock [] reads e he s
          simp only [List.nil_append] at h'
          rw [h'] at h
          obtain ⟨pre, f, rest, s1, w, ps, b, rfl, h1, h2, h3⟩ := ih s h
          refine ⟨.error e :: pre, f, rest, s1, w, ps, b, rfl, ?_, ?_, h3⟩
          · simpa using ⟨fun h => he h.symm, h1⟩
          · have := C57_error_skipped D clock [] pre e he s
            simp only [List.nil_append] at this
            rw [this, h2]
      | ok f =>
        simp only [processFrames] at h
        cases hp : processFrame D clock s f with
        | panic =>
          obtain ⟨ps, b, h1, h2⟩ := (frame_panics_iff s f).1 hp
          exact ⟨[], f, reads, s, [], ps, b, rfl, by simp, rfl, h1, h2⟩
        | ret x =>
          rw [hp] at h
          simp only [Out.bind_ret] at h
          cases hq : processFrames D clock reads x.1 with
          | ret y => rw [hq] at h; cases h
          | panic =>
            obtain ⟨pre, f', rest, s1, w, ps, b, rfl, h1, h2, h3⟩ := ih x.1 hq
            refine ⟨.ok f :: pre, f', rest, s1, x.2 ++ w, ps, b, rfl, by simpa using h1, ?_, h3⟩
            simp only [processFrames, hp, Out.bind_ret, h2]
  · rintro ⟨pre, f, rest, s1, w, ps, b, rfl, h1, h2, h3⟩
    rw [C57_keeps_reading D clock _ _ h1, h2]
    simp only [Out.bind_ret, processFrames, (frame_panics_iff s1 f).2 ⟨ps, b, h3⟩, Out.bind_panic]

/-- C54, part: a server that gets only frames whose packets stay inside the frame and are not malformed never panics.
Missing: all other frames, see `C54_panics_iff` and `C54_fails`. -/
theorem C54_survives_partial {σ : Type} (D : Device σ) (clock : Clock) (reads : List (Except Err Slice))
    (h : ∀ f, .ok f ∈ reads → ∃ ps, Scan f.spare f.data ps false ∧ ∀ p ∈ ps, ∀ m, ¬ Malformed m p) (s : Srv σ) :
    ∃ x, processFrames D clock reads s = .ret x := by
  cases hp : processFrames D clock reads s with
  | ret x => exact ⟨x, rfl⟩
  | panic =>
    obtain ⟨pre, f, rest, s1, w, ps, b, rfl, _, _, h3, h4⟩ := (C54_panics_iff D clock reads s).1 hp
    obtain ⟨ps', h5, h6⟩ := h f (by simp)
    obtain ⟨rfl, rfl⟩ := scan_unique h3 h5
    rcases h4 with h4 | ⟨ps1, p, ps2, rfl, hm⟩
    · cases h4
    · exact absurd hm (h6 p (by simp) _)

example {σ : Type} (D : Device σ) (clock : Clock) (s : Srv σ) :
    ∃ x, processFrames D clock [.error .noProgress, .ok ⟨[0x55, 0x02, 0x00, 0x07, 0xF7], []⟩] s = .ret x :=
  C54_survives_partial D clock _ (by
    intro f hf
    simp only [List.mem_cons, List.not_mem_nil, or_false, reduceCtorEq, false_or, Except.ok.injEq] at hf
    subst hf
    refine ⟨[[0x00, 0x07]], .packet (j := []) (w := [0x55, 0x02, 0x00, 0x07, 0xF7]) (rest := []) (by decide)
      ⟨[2], 0xF7, .inl ⟨2, by decide, rfl, rfl⟩, rfl, by decide⟩ (.done (by decide)), ?_⟩
    rintro p hp m ⟨trx, _, ⟨b, h, _⟩ | ⟨n, r, h, _⟩⟩ <;> (simp at hp; subst hp; simp at h)) s

/-- C54 fails: a fresh server on a freshly opened device dies from one report of six bytes, an announcement of 255 bytes in a
frame of four. -/
theorem C54_fails {σ : Type} (D : Device σ) (clock : Clock) (grow : Growth) (dev : σ) :
    serve D clock grow defaultReportDefs [⟨[0x01, 0x00, 0x55, 0xff, 0x01, 0x02], none⟩] (Srv.init dev) = .panic := by
  have h : frameReads grow defaultReportDefs 1
      ([(⟨[0x01, 0x00, 0x55, 0xff, 0x01, 0x02], none⟩ : ReadRes)].map rawReadReport) ⟨[], []⟩ =
      .ret [.ok ⟨[0x55, 0xff, 0x01, 0x02], List.replicate 60 0⟩] := rfl
  simp only [serve, List.length_cons, List.length_nil, Nat.zero_add, h, Out.bind_ret]
  refine (C54_panics_iff _ _ _ _).2 ⟨[], _, [], _, [], [], true, rfl, by simp, rfl, ?_, .inl rfl⟩
  exact .crash (j := []) (by decide) ⟨[0xff], [0x01, 0x02], 255, rfl, .inl ⟨0xff, by decide, rfl, rfl⟩, by decide, by decide,
    .inl (by decide)⟩

/-- C54 fails also without any overrun: a well-formed packet carrying RequestApplicationLaunch with an empty body. -/
theorem C54_fails_malformed {σ : Type} (D : Device σ) (clock : Clock) (grow : Growth) (dev : σ) :
    serve D clock grow defaultReportDefs [⟨[0x01, 0x00, 0x55, 0x02, 0x00, 0x64, 0x9A], none⟩] (Srv.init dev) = .panic := by
  have h : frameReads grow defaultReportDefs 1
      ([(⟨[0x01, 0x00, 0x55, 0x02, 0x00, 0x64, 0x9A], none⟩ : ReadRes)].map rawReadReport) ⟨[], []⟩ =
      .ret [.ok ⟨[0x55, 0x02, 0x00, 0x64, 0x9A], List.replicate 59 0⟩] := rfl
  simp only [serve, List.length_cons, List.length_nil, Nat.zero_add, h, Out.bind_ret]
  refine (C54_panics_iff _ _ _ _).2 ⟨[], _, [], _, [], [[0x00, 0x64]], false, rfl, by simp, rfl, ?_,
    .inr ⟨[], [0x00, 0x64], [], rfl, [], rfl, .inl ⟨[], rfl, by decide⟩⟩⟩
  exact .packet (j := []) (w := [0x55, 0x02, 0x00, 0x64, 0x9A]) (rest := []) (by decide)
    ⟨[2], 0x9A, .inl ⟨2, by decide, rfl, rfl⟩, rfl, by decide⟩ (.done (by decide))

example : ∃ ps, Scan [] [0x55, 0x02, 0x00, 0x07, 0xF7] ps false ∧ ∀ p ∈ ps, ∀ m, ¬ Malformed m p := by
  refine ⟨[[0x00, 0x07]], .packet (j := []) (w := [0x55, 0x02, 0x00, 0x07, 0xF7]) (rest := []) (by decide)
    ⟨[2], 0xF7, .inl ⟨2, by decide, rfl, rfl⟩, rfl, by decide⟩ (.done (by decide)), ?_⟩
  rintro p hp m ⟨trx, _, ⟨b, h, _⟩ | ⟨n, r, h, _⟩⟩ <;> (simp at hp; subst hp; simp at h)

/-! ## C56 -/

/-- The emitted commands never switch the transaction mode. -/
theorem answers_no_switch (l c : Nat) : ∀ a ∈ answers l c, ∀ p ∈ a, p ≠ (0x00, 0x00) ∧ p ≠ (0x00, 0x13) ∧ p ≠ (0x00, 0x38) := by
  intro a ha p hp
  simp only [answers, List.mem_cons, List.not_mem_nil, or_false] at ha
  repeat' split at ha
  all_goals
    simp only [List.mem_cons, List.not_mem_nil, or_false] at ha
    (try rcases ha with rfl | rfl | rfl) <;> (try rcases ha with rfl | rfl) <;> (try subst ha)
    all_goals
      simp only [List.mem_cons, List.not_mem_nil, or_false] at hp <;>
      (try rcases hp with rfl | rfl | rfl) <;> (try rcases hp with rfl | rfl) <;> (try subst hp) <;>
        (simp only [ne_eq, Prod.mk.injEq]; omega)

theorem emitted_no_switch {σ : Type} {D : Device σ} {clock : Clock} {cmd : Command} {c c' : Ctx σ} {new : List Command}
    (hr : Received cmd) (h : Handles D clock cmd c c' new) (x : Command) (hx : x ∈ new) : switchOfId x.id = none := by
  have key : idPair x.id ≠ (0x00, 0x00) ∧ idPair x.id ≠ (0x00, 0x13) ∧ idPair x.id ≠ (0x00, 0x38) := by
    cases hp : cmd.payload with
    | nil => rw [(C64_undecodable h hp).1] at hx; cases hx
    | ptr t v => exact answers_no_switch _ _ _ (C64_replies hr h hp) _ (List.mem_map_of_mem hx)
    | unknown b =>
      obtain ⟨h1, h2⟩ := h
      rcases handlePacket_of_lingo h1 with ⟨e, h1⟩ | ⟨e, h1⟩ | ⟨e, h1⟩ | ⟨e, h1⟩ | ⟨e, rfl⟩
      · rw [afterAudio, hp] at h1
        simp only [handleGeneral, hp, Ctx.ack, respond_eq, authComplete, Bool.false_eq_true, if_false] at h1
        cases h1
        rw [out1 h2, List.mem_singleton] at hx
        subst hx
        exact (by decide +kernel : idPair (TypeId.gen GenT.ACK).id ≠ (0x00, 0x00) ∧
          idPair (TypeId.gen GenT.ACK).id ≠ (0x00, 0x13) ∧ idPair (TypeId.gen GenT.ACK).id ≠ (0x00, 0x38))
      · simp only [handleDispRemote, hp] at h1; cases h1; rw [out0 h2] at hx; cases hx
      · simp only [handleExtRemote, hp] at h1; cases h1; rw [out0 h2] at hx; cases hx
      · simp only [handleAudio, hp] at h1; cases h1; rw [out0 h2] at hx; cases hx
      · rw [out0 h2] at hx; cases hx
  have e : ∀ k : UInt16, x.id = idOf 0x00 k → idPair x.id = (0, k.toNat) := by
    intro k hk; rw [hk, idPair, lingoID_idOf, cmdID_idOf]; rfl
  rw [switchOfId, if_neg, if_neg, if_neg]
  · intro h; exact key.2.2 (e _ h)
  · intro h; exact key.2.1 (e _ h)
  · intro h; exact key.1 (e _ h)

/-- Everything about one emitted command. -/
theorem handledEach_mem {σ : Type} {D : Device σ} {clock : Clock} {cmds : List Command} {c c' : Ctx σ}
    {news : List (List Command)} (h : HandledEach D clock cmds c c' news) (x : Command) (hx : x ∈ news.flatten) :
    ∃ cmd ∈ cmds, ∃ a b new, Handles D clock cmd a b new ∧ x ∈ new := by
  induction h with
  | nil => simp at hx
  | cons a _ ih =>
    rw [List.flatten_cons, List.mem_append] at hx
    rcases hx with hx | hx
    · exact ⟨_, by simp, _, _, _, a, hx⟩
    · obtain ⟨cmd, h1, h2⟩ := ih hx
      exact ⟨cmd, by simp [h1], h2⟩

/-- As none of them switches the mode, all are encoded in the same. -/
theorem encoded_const {m m' : Bool} {cmds : List Command} {rs : List (Except Err Bytes)} (h : Encoded m cmds m' rs)
    (hn : ∀ x ∈ cmds, switchOfId x.id = none) : m' = m ∧ rs = cmds.map fun x => (marshalCmd m x).2 := by
  induction h with
  | nil => exact ⟨rfl, rfl⟩
  | @cons m m' m'' cmd cmds r rs a _ ih =>
    have hm : m' = m := by
      have := marshal_mode m cmd
      rw [a] at this
      simpa [switchOf, hn cmd (by simp)] using this
    subst hm
    obtain ⟨h1, h2⟩ := ih (fun x hx => hn x (by simp [hx]))
    exact ⟨h1, by rw [h2, List.map_cons, a]⟩

theorem marshal_ne_nil {m : Bool} {cmd : Command} {p : Bytes} (h : (marshalCmd m cmd).2 = .ok p) : p ≠ [] := by
  rintro rfl
  rw [marshalCmd_eq] at h
  cases he : encodePayload cmd.payload with
  | error e => rw [he] at h; cases h
  | ok b =>
    rw [he] at h
    injection h with h
    have h := (List.append_eq_nil_iff.1 (List.append_eq_nil_iff.1 h).1).1
    unfold idBytes at h
    split at h <;> cases h

/-- What is written for an encoding. -/
theorem frameOf_frameFor {r : Except Err Bytes} (h : ∀ p, r = .ok p → p ≠ [] ∧ p.length ≤ 65535 ∧ p.length ≠ 256) :
    FrameFor r (frameOf r) := by
  cases r with
  | error e => exact .nothing
  | ok p =>
    obtain ⟨h1, h2, h3⟩ := h p rfl
    obtain ⟨w, hw, he⟩ := writePacket_isPacket p (List.length_pos_iff.2 h1) h2 h3
    have : frameOf (.ok p) = w := by simp only [frameOf, newPacketWriter]; rw [he]; rfl
    rw [this]; exact .packet hw

/-- The frame of a packet is one only if the packet writer can announce its length. -/
theorem frameOf_frameFor_ok {p : Bytes} (h : FrameFor (.ok p) (frameOf (.ok p))) : p.length ≤ 65535 ∧ p.length ≠ 256 := by
  cases h with
  | packet hw =>
    have hl : p.length ≤ 65535 := by
      obtain ⟨hdr, ck, hh, _⟩ := hw
      rcases hh with ⟨b, _, hb, _⟩ | ⟨hi, lo, hb, _⟩
      · have := b.toNat_lt; omega
      · have := hi.toNat_lt; have := lo.toNat_lt; omega
    refine ⟨hl, fun h256 => ?_⟩
    have := readPacket_isPacket [] _ p [] [] (by simp [Filler]) hw
    simp only [List.append_nil, List.nil_append] at this
    exact (C01_fails_at_256 p [] h256).2 _ this

/-- C56. One frame: its packets are decoded in order, the commands handled in order, and everything emitted is encoded, in the
mode left by the last packet, and written in a frame of its own, in the order emitted. Nothing else is written. The frame is a packet exactly when the encoding
has neither 256 nor more than 65535 bytes: the packet writer spoils those (`C01_fails_at_256`, `C08_oversize`). -/
theorem C56_frame_per_response_partial {σ : Type} {D : Device σ} {clock : Clock} {s s' : Srv σ} {d spare : Bytes}
    {w : List Bytes} (h : processFrame D clock s ⟨d, spare⟩ = .ret (s', w)) :
    ∃ ps m cmds c news, Scan spare d ps false ∧ Decoded s.mode ps m cmds ∧ m = modeAfter s.mode (ps.map .receive) ∧
      HandledEach D clock cmds { s.ctx with out := [] } c news ∧ w.length = news.flatten.length ∧
      (∀ (i : Nat) (x : Command) (f : Bytes), news.flatten[i]? = some x → w[i]? = some f →
        (FrameFor (marshalCmd m x).2 f ↔ ∀ p, (marshalCmd m x).2 = .ok p → p.length ≤ 65535 ∧ p.length ≠ 256)) ∧
      s'.mode = m ∧ s'.ctx = { c with out := [] } := by
  obtain ⟨ps, m, cmds, c, news, rs, h1, h2, h3, h4, rfl, h5⟩ := processFrame_ret h
  obtain ⟨e1, e2⟩ := encoded_const h4 (fun x hx => by
    obtain ⟨cmd, hc, a, b, new, hh, hx⟩ := handledEach_mem h3 x hx
    exact emitted_no_switch (decoded_received h2 cmd hc) hh x hx)
  refine ⟨ps, m, cmds, c, news, h1, h2, decoded_mode h2, h3, by rw [e2, List.length_map, List.length_map], ?_, e1, h5⟩
  intro i x f hx hf
  subst e2
  rw [List.map_map, List.getElem?_map, hx] at hf
  simp only [Option.map_some, Option.some.injEq, Function.comp] at hf
  subst hf
  refine ⟨fun hF p hp => ?_, fun hs => frameOf_frameFor fun p hp => ⟨marshal_ne_nil hp, hs p hp⟩⟩
  rw [hp] at hF
  exact frameOf_frameFor_ok hF

/-- C56. The responses of a session are those of its frames, one frame after another. -/
theorem C56_session_order {σ : Type} (D : Device σ) (clock : Clock) (pre rest : List (Except Err Slice)) (f : Slice)
    (hn : .error .eof ∉ pre) (s s1 s2 s3 : Srv σ) (w1 w2 w3 : List Bytes)
    (h1 : processFrames D clock pre s = .ret (s1, w1)) (h2 : processFrame D clock s1 f = .ret (s2, w2))
    (h3 : processFrames D clock rest s2 = .ret (s3, w3)) :
    processFrames D clock (pre ++ .ok f :: rest) s = .ret (s3, w1 ++ w2 ++ w3) := by
  rw [C57_keeps_reading D clock _ _ hn, h1]
  simp only [Out.bind_ret, processFrames, h2, h3, List.append_assoc]

/-- C56, at the other end of the wire: the frames written for encodings `rs` (empty for those that failed), sent as HID
reports, each `Write` arriving as one `Read`, are received as exactly the encoded packets, one per frame, in order. -/
theorem C56_received_partial (grow : Growth) (defs : List ReportDef) (hg : GoodTable defs)
    (hmax : ∀ d ∈ defs, d.maxPayload ≤ 1022) (sent : List (Except Err Bytes × Bytes × List Report))
    (h : ∀ x ∈ sent, FrameFor x.1 x.2.1 ∧ (∀ p, x.1 = .ok p → 1 ≤ p.length ∧ p.length ≤ 65535 ∧ p.length ≠ 256 ∧
      x.2.1 = (writePacket newPacketWriter p).1) ∧ Written defs x.2.1 x.2.2) (buf : Slice) :
    let packets := sent.filterMap fun x => x.1.toOption
    receive grow defs (packets.map fun _ => 2)
      (sent.flatMap fun x => x.2.2.map fun r => (⟨rawReportBytes r, none⟩ : ReadRes)) buf =
      .ret (packets.map fun p => .ok [.ok p, .error .eof]) := by
  intro packets
  let frames : List (List Bytes × List Report) := sent.filterMap fun x => x.1.toOption.map fun p => ([p], x.2.2)
  have e1 : (sent.flatMap fun x => x.2.2.map fun r => (⟨rawReportBytes r, none⟩ : ReadRes)) =
      frames.flatMap fun p => p.2.map fun r => (⟨rawReportBytes r, none⟩ : ReadRes) := by
    clear packets
    induction sent with
    | nil => rfl
    | cons x sent ih =>
      have ih := ih (fun y hy => h y (by simp [hy]))
      obtain ⟨h1, h2, h3⟩ := h x (by simp)
      obtain ⟨r, f, rep⟩ := x
      rw [List.flatMap_cons, ih]
      cases r with
      | ok p => rfl
      | error e =>
        cases h1
        have : rep = [] := by
          obtain ⟨fuel, hf⟩ := h3
          cases fuel with
          | zero => cases hf
          | succ n =>
            simp only [writeFrameFor, List.length_nil, writeFrameLoop, if_true, Option.some.injEq, Out.ret.injEq,
              Prod.mk.injEq] at hf
            exact hf.1.symm
        subst this
        rfl
  have e2 : packets = frames.map fun p => p.1.headD [] := by
    simp only [packets, frames]
    clear e1 packets
    induction sent with
    | nil => rfl
    | cons x sent ih =>
      have ih := ih (fun y hy => h y (by simp [hy]))
      obtain ⟨r, f, rep⟩ := x
      cases r with
      | ok p => exact congrArg (p :: ·) ih
      | error e => exact ih
  have e3 : ∀ p ∈ frames, ∃ x ∈ sent, ∃ q, x.1 = .ok q ∧ p = ([q], x.2.2) := by
    intro p hp
    obtain ⟨x, hx, hx2⟩ := List.mem_filterMap.1 hp
    refine ⟨x, hx, ?_⟩
    obtain ⟨r, f, rep⟩ := x
    cases r with
    | error e => cases hx2
    | ok q => exact ⟨q, rfl, by simpa [Except.toOption] using hx2.symm⟩
  have h37 := C37_end_to_end_partial grow defs hg hmax frames (by
    intro p hp
    obtain ⟨x, hx, q, hq, rfl⟩ := e3 p hp
    obtain ⟨_, h2, h3⟩ := h x hx
    obtain ⟨a, b, c, d⟩ := h2 q hq
    refine ⟨by simp, by simpa using ⟨a, b, c⟩, ?_⟩
    rw [d] at h3
    exact h3) buf
  rw [e1, e2, List.map_map, List.map_map]
  have e4 : (frames.map fun p => p.1.length + 1) = frames.map ((fun _ : Bytes => 2) ∘ fun p => p.1.headD []) := by
    apply List.map_congr_left
    intro p hp
    obtain ⟨x, hx, q, hq, rfl⟩ := e3 p hp
    rfl
  rw [← e4, h37]
  congr 1
  apply List.map_congr_left
  intro p hp
  obtain ⟨x, hx, q, hq, rfl⟩ := e3 p hp
  rfl

/-! ## C53 -/

theorem handles_general {σ : Type} {D : Device σ} {clock : Clock} {cmd : Command} {c c' : Ctx σ} {new : List Command}
    (hr : Received cmd) (h : Handles D clock cmd c c' new) {t : GenT} {v : (TypeId.gen t).Val}
    (hp : cmd.payload = .ptr (.gen t) v) : handleGeneral D cmd (afterAudio cmd c) = .ret c' := by
  rw [← handlePacket_general _ _ _ _ (lingo_of_gen (received_wf hr).2 hp)]; exact h.1

theorem handles_disp {σ : Type} {D : Device σ} {clock : Clock} {cmd : Command} {c c' : Ctx σ} {new : List Command}
    (hr : Received cmd) (h : Handles D clock cmd c c' new) {t : DispT} {v : (TypeId.disp t).Val}
    (hp : cmd.payload = .ptr (.disp t) v) : handleDispRemote clock cmd c = .ret c' := by
  have hl : cmd.id.lingoID = 0x03 := by rw [(received_wf hr).2 _ _ hp]; exact lingoID_id _
  rcases handlePacket_of_lingo h.1 with ⟨e, h1⟩ | ⟨e, h1⟩ | ⟨e, h1⟩ | ⟨e, h1⟩ | ⟨e, h1⟩ <;> rw [hl] at e
  · cases e
  · exact h1
  · cases e
  · cases e
  · exact absurd e (by decide)

theorem handles_ext {σ : Type} {D : Device σ} {clock : Clock} {cmd : Command} {c c' : Ctx σ} {new : List Command}
    (hr : Received cmd) (h : Handles D clock cmd c c' new) {t : ExtT} {v : (TypeId.ext t).Val}
    (hp : cmd.payload = .ptr (.ext t) v) : handleExtRemote cmd c = .ret c' := by
  have hl : cmd.id.lingoID = 0x04 := by rw [(received_wf hr).2 _ _ hp]; exact lingoID_id _
  rcases handlePacket_of_lingo h.1 with ⟨e, h1⟩ | ⟨e, h1⟩ | ⟨e, h1⟩ | ⟨e, h1⟩ | ⟨e, h1⟩ <;> rw [hl] at e
  · cases e
  · cases e
  · exact h1
  · cases e
  · exact absurd e (by decide)

/-- The response to an unsendable request cannot be encoded. -/
theorem unsendable_lost {σ : Type} {D : Device σ} {clock : Clock} {cmd : Command} {c c' : Ctx σ} {new : List Command}
    (hr : Received cmd) (h : Handles D clock cmd c c' new) (hu : Unsendable cmd) :
    ∃ x e, new = [x] ∧ ∀ m, (marshalCmd m x).2 = .error e := by
  have fin : ∀ (x : Command) (e : Err), encodePayload x.payload = .error e → ∀ m, (marshalCmd m x).2 = .error e := by
    intro x e he m; rw [marshalCmd_eq, he]
  cases hu with
  | tokens ts u hp hk => exact C25_unknown_token_lost hr h ts u hp hk
  | authInfo v hp | focusApp v hp =>
    have h1 := handles_general hr h hp
    simp only [afterAudio, hp, authComplete, Bool.false_eq_true, if_false, handleGeneral, respond_eq] at h1
    cases h1
    exact ⟨_, _, out1 h.2, fin _ _ rfl⟩
  | chapterName v hp =>
    have h1 := handles_ext hr h hp
    simp only [hp, handleExtRemote, respond_eq] at h1
    cases h1
    exact ⟨_, _, out1 h.2, fin _ _ rfl⟩
  | eqName v hp | artworkFormats v hp | artworkTimes v hp =>
    have h1 := handles_disp hr h hp
    simp only [hp, handleDispRemote, respond_eq] at h1
    cases h1
    exact ⟨_, _, out1 h.2, fin _ _ rfl⟩

theorem writePacket_ne_nil {p : Bytes} (h : p ≠ []) : (writePacket newPacketWriter p).1 ≠ [] := by
  intro e
  cases p with
  | nil => exact h rfl
  | cons a p => simp [writePacket, newPacketWriter] at e

theorem frameOf_nil_iff {m : Bool} {x : Command} : frameOf (marshalCmd m x).2 = [] ↔ ∃ e, (marshalCmd m x).2 = .error e := by
  cases h : (marshalCmd m x).2 with
  | error e => exact ⟨fun _ => ⟨e, rfl⟩, fun _ => rfl⟩
  | ok p =>
    refine ⟨fun h2 => ?_, fun h2 => by obtain ⟨e, h2⟩ := h2; cases h2⟩
    exact absurd h2 (writePacket_ne_nil (marshal_ne_nil h))

/-- C53, exact characterisation: in the treatment of a frame one frame is written per emitted command, and one of them is
empty (it is lost) iff one of the commands received is unsendable. -/
theorem C53_lost_iff {σ : Type} {D : Device σ} {clock : Clock} {s s' : Srv σ} {d spare : Bytes}
    {w : List Bytes} (h : processFrame D clock s ⟨d, spare⟩ = .ret (s', w)) :
    ∃ ps m cmds c news, Scan spare d ps false ∧ Decoded s.mode ps m cmds ∧
      HandledEach D clock cmds { s.ctx with out := [] } c news ∧ w.length = news.flatten.length ∧
      ([] ∈ w ↔ ∃ cmd ∈ cmds, Unsendable cmd) := by
  obtain ⟨ps, m, cmds, c, news, rs, h1, h2, h3, h4, rfl, h5⟩ := processFrame_ret h
  obtain ⟨_, e2⟩ := encoded_const h4 (fun x hx => by
    obtain ⟨cmd, hc, a, b, new, hh, hx⟩ := handledEach_mem h3 x hx
    exact emitted_no_switch (decoded_received h2 cmd hc) hh x hx)
  refine ⟨ps, m, cmds, c, news, h1, h2, h3, by rw [e2, List.length_map, List.length_map], ?_⟩
  subst e2
  rw [List.map_map, List.mem_map]
  constructor
  · rintro ⟨x, hx, he⟩
    obtain ⟨cmd, hc, a, b, new, hh, hx⟩ := handledEach_mem h3 x hx
    refine ⟨cmd, hc, Classical.byContradiction fun hu => ?_⟩
    obtain ⟨b, hb⟩ := (replies_ok (decoded_received h2 cmd hc) hh x hx).sendable hu
    obtain ⟨e, he⟩ := frameOf_nil_iff.1 he
    rw [marshalCmd_eq, hb] at he
    cases he
  · rintro ⟨cmd, hc, hu⟩
    have hr := decoded_received h2 cmd hc
    clear h1 h2 h4 h h5
    generalize ({ s.ctx with out := [] } : Ctx σ) = c0 at h3
    induction h3 with
    | nil => cases hc
    | @cons cmd' cmds c c' c'' new news a _ ih =>
      rcases List.mem_cons.1 hc with rfl | hc
      · obtain ⟨x, e, rfl, he⟩ := unsendable_lost hr a hu
        exact ⟨x, by simp, frameOf_nil_iff.2 ⟨e, he m⟩⟩
      · obtain ⟨x, hx, he⟩ := ih hc
        exact ⟨x, by rw [List.flatten_cons]; exact List.mem_append_right _ hx, he⟩

/-- C53 (frames without unsendable requests). Whatever was emitted is encoded and handed to the transport as a non-empty
frame. Missing: unsendable requests, whose response is lost, see `C53_lost_iff`, `C53_fails`. -/
theorem C53_responses_written_partial {σ : Type} {D : Device σ} {clock : Clock} {s s' : Srv σ} {d spare : Bytes}
    {w : List Bytes} (h : processFrame D clock s ⟨d, spare⟩ = .ret (s', w)) :
    ∃ ps m cmds c news, Scan spare d ps false ∧ Decoded s.mode ps m cmds ∧
      HandledEach D clock cmds { s.ctx with out := [] } c news ∧ w.length = news.flatten.length ∧
      ((∀ cmd ∈ cmds, ¬ Unsendable cmd) → ∀ f ∈ w, f ≠ []) := by
  obtain ⟨ps, m, cmds, c, news, h1, h2, h3, h4, h5⟩ := C53_lost_iff h
  refine ⟨ps, m, cmds, c, news, h1, h2, h3, h4, ?_⟩
  rintro hn _ hf rfl
  obtain ⟨cmd, hc, hu⟩ := h5.1 hf
  exact hn cmd hc hu

/-- C53 fails: asked for its focus application (00 65), the device hands an empty frame to the transport. -/
theorem C53_fails {σ : Type} (D : Device σ) (clock : Clock) (grow : Growth) (dev : σ) :
    serve D clock grow defaultReportDefs [⟨[0x01, 0x00, 0x55, 0x02, 0x00, 0x65, 0x99], none⟩] (Srv.init dev) =
      .ret (Srv.init dev, [[]]) := by
  have h : frameReads grow defaultReportDefs 1
      ([(⟨[0x01, 0x00, 0x55, 0x02, 0x00, 0x65, 0x99], none⟩ : ReadRes)].map rawReadReport) ⟨[], []⟩ =
      .ret [.ok ⟨[0x55, 0x02, 0x00, 0x65, 0x99], List.replicate 59 0⟩] := rfl
  have h2 : readCommands false ⟨[0x55, 0x02, 0x00, 0x65, 0x99], List.replicate 59 0⟩ =
      .ret (false, [⟨TypeId.id (.gen .GetNowPlayingFocusApp), none, .ptr (.gen .GetNowPlayingFocusApp) ()⟩]) := by
    decide +kernel
  have h3 : handlePacket D clock ⟨TypeId.id (.gen .GetNowPlayingFocusApp), none, .ptr (.gen .GetNowPlayingFocusApp) ()⟩
      (Srv.init dev).ctx = .ret { (Srv.init dev).ctx with out := [⟨TypeId.id (.gen .RetNowPlayingFocusApp), none,
        .ptr (.gen .RetNowPlayingFocusApp) (stringToBytes [], ())⟩] } := by
    rw [handlePacket_general _ _ _ _ (by decide +kernel)]
    simp only [afterAudio, authComplete, Bool.false_eq_true, if_false, handleGeneral, respond_eq]
    rfl
  simp only [serve, List.length_cons, List.length_nil, Nat.zero_add, h, Out.bind_ret, processFrames, processFrame, handleAll,
    show (Srv.init dev).mode = false from rfl, h2, show ({ (Srv.init dev).ctx with out := [] } : Ctx σ) = (Srv.init dev).ctx from rfl, h3]
  rfl

/-! ## C55 -/

/-- C55. Every command emitted for a frame is encoded in the mode left by the last packet of the frame: it carries its
transaction iff transactions are on then. -/
theorem C55_batch_mode {σ : Type} {D : Device σ} {clock : Clock} {s s' : Srv σ} {d spare : Bytes}
    {w : List Bytes} (h : processFrame D clock s ⟨d, spare⟩ = .ret (s', w)) :
    ∃ ps m cmds c news, Scan spare d ps false ∧ Decoded s.mode ps m cmds ∧
      HandledEach D clock cmds { s.ctx with out := [] } c news ∧ w.length = news.flatten.length ∧
      ∀ (i : Nat) (x : Command) (f : Bytes), news.flatten[i]? = some x → w[i]? = some f →
        (∃ l k body, x.id = idOf l k ∧ PayloadBytes x.payload body ∧
          f = (writePacket newPacketWriter (idBytes l k ++
            (if modeAfter s.mode (ps.map .receive) then transactionBytes x.trx else []) ++ body)).1) ∨
        f = [] := by
  obtain ⟨ps, m, cmds, c, news, rs, h1, h2, h3, h4, rfl, h5⟩ := processFrame_ret h
  have hns : ∀ x ∈ news.flatten, switchOfId x.id = none := fun x hx => by
    obtain ⟨cmd, hc, a, b, new, hh, hx⟩ := handledEach_mem h3 x hx
    exact emitted_no_switch (decoded_received h2 cmd hc) hh x hx
  obtain ⟨e1, e2⟩ := encoded_const h4 hns
  refine ⟨ps, m, cmds, c, news, h1, h2, h3, by rw [e2, List.length_map, List.length_map], ?_⟩
  intro i x f hx hf
  subst e2
  rw [List.map_map, List.getElem?_map, hx] at hf
  simp only [Option.map_some, Option.some.injEq, Function.comp] at hf
  subst hf
  cases hm : (marshalCmd m x).2 with
  | error e => exact .inr rfl
  | ok p =>
    have hmem := List.mem_of_getElem? hx
    obtain ⟨cmd, hc, a, b, new, hh, hx'⟩ := handledEach_mem h3 x hmem
    have hid : ∃ l c, x.id = idOf l c := by
      rcases handles_mem hh hx' with ⟨rfl, _⟩ | hx'
      · exact ⟨_, _, rfl⟩
      · obtain ⟨t, v, _, e, _⟩ := hx'.typed; exact ⟨_, _, e⟩
    obtain ⟨l, k, body, e1, e2, e3⟩ := (C17_packet_layout m x hid p).1 hm
    refine .inl ⟨l, k, body, e1, e2, ?_⟩
    rw [hns x hmem, Option.getD_none] at e3
    rw [← decoded_mode h2, ← e3]
    rfl

/-- C55 (frames that leave transactions on). Every response carries on the wire the transaction of its request, in a frame
that leaves transactions enabled: the last switch in it, or the mode before it, is on. Missing: frames that switch
transactions off at the end, see `C55_fails`. -/
theorem C55_transactions_kept_partial {σ : Type} {D : Device σ} {clock : Clock} {s s' : Srv σ} {d spare : Bytes}
    {w : List Bytes} (h : processFrame D clock s ⟨d, spare⟩ = .ret (s', w)) :
    ∃ ps m cmds c news, Scan spare d ps false ∧ Decoded s.mode ps m cmds ∧
      HandledEach D clock cmds { s.ctx with out := [] } c news ∧ w.length = news.flatten.length ∧
      (modeAfter s.mode (ps.map .receive) = true →
        ∀ (i : Nat) (x : Command) (f : Bytes), news.flatten[i]? = some x → w[i]? = some f → f ≠ [] →
          ∃ cmd ∈ cmds, ∃ l k body, (DeviceOriginated cmd x ∨ x.trx = cmd.trx) ∧ x.id = idOf l k ∧
            PayloadBytes x.payload body ∧
            f = (writePacket newPacketWriter (idBytes l k ++ transactionBytes x.trx ++ body)).1) := by
  obtain ⟨ps, m, cmds, c, news, h1, h2, h3, h4, h5⟩ := C55_batch_mode h
  refine ⟨ps, m, cmds, c, news, h1, h2, h3, h4, fun hm i x f hx hf hne => ?_⟩
  obtain ⟨cmd, hc, a, b, new, hh, hx'⟩ := handledEach_mem h3 x (List.mem_of_getElem? hx)
  rcases h5 i x f hx hf with ⟨l, k, body, e1, e2, e3⟩ | e
  · rw [if_pos hm] at e3
    refine ⟨cmd, hc, l, k, body, ?_, e1, e2, e3⟩
    rcases Classical.em (DeviceOriginated cmd x) with ho | ho
    · exact .inl ho
    · exact .inr (C46_response_transaction hh x hx' ho)
  · exact absurd e hne

/-- The theorems about a frame apply to a request for the name, which is answered. -/
theorem nameFrame_answered : ∃ s', processFrame devGeneral (fun _ => ⟨2024, 1, 2, 3, 4⟩) (Srv.init DevGeneral.zero)
    ⟨[0x55, 0x02, 0x00, 0x07, 0xF7], []⟩ = .ret (s', [[0x55, 0x0E, 0x00, 0x08, 0x69, 0x70, 0x6F, 0x64, 0x2D, 0x67, 0x61, 0x64, 0x67, 0x65,
      0x74, 0x00, 0xA5]]) := by
  have h : (processFrame devGeneral (fun _ => ⟨2024, 1, 2, 3, 4⟩) (Srv.init DevGeneral.zero) ⟨[0x55, 0x02, 0x00, 0x07, 0xF7], []⟩ >>= fun x => .ret x.2) =
      .ret [[0x55, 0x0E, 0x00, 0x08, 0x69, 0x70, 0x6F, 0x64, 0x2D, 0x67, 0x61, 0x64, 0x67, 0x65, 0x74, 0x00, 0xA5]] := by
    decide +kernel
  revert h
  cases processFrame devGeneral (fun _ => ⟨2024, 1, 2, 3, 4⟩) (Srv.init DevGeneral.zero) ⟨[0x55, 0x02, 0x00, 0x07, 0xF7], []⟩ with
  | panic => intro h; cases h
  | ret x => intro h; simp only [Out.bind_ret, Out.ret.injEq] at h; exact ⟨x.1, by rw [← h]⟩

/-- `C53_responses_written_partial`, `C53_lost_iff`, `C55_batch_mode`, `C55_transactions_kept_partial` and
`C56_frame_per_response_partial` on that frame; nothing is lost. -/
example : ∃ ps m cmds c news, Scan [] [0x55, 0x02, 0x00, 0x07, 0xF7] ps false ∧ Decoded false ps m cmds ∧
    HandledEach devGeneral (fun _ => ⟨2024, 1, 2, 3, 4⟩) cmds ⟨DevGeneral.zero, [], 0, [], 0⟩ c news ∧ 1 = news.flatten.length ∧
    ¬ ∃ cmd ∈ cmds, Unsendable cmd := by
  obtain ⟨s', h⟩ := nameFrame_answered
  obtain ⟨ps, m, cmds, c, news, h1, h2, h3, h4, h5⟩ := C53_lost_iff h
  exact ⟨ps, m, cmds, c, news, h1, h2, h3, h4, fun hx => absurd (h5.2 hx) (by simp)⟩

/-- `C56_session_order`: a read that fails, that frame, and another. -/
example (s3 : Srv DevGeneral) (w3 : List Bytes) :
    ∃ s2 w2, processFrames devGeneral (fun _ => ⟨2024, 1, 2, 3, 4⟩) [.ok ⟨[0x55, 0x02, 0x00, 0x09, 0xF5], []⟩] s2 = .ret (s3, w3) →
      processFrames devGeneral (fun _ => ⟨2024, 1, 2, 3, 4⟩) ([.error .noProgress] ++ .ok ⟨[0x55, 0x02, 0x00, 0x07, 0xF7], []⟩ ::
        [.ok ⟨[0x55, 0x02, 0x00, 0x09, 0xF5], []⟩]) (Srv.init DevGeneral.zero) = .ret (s3, [] ++ w2 ++ w3) := by
  obtain ⟨s', h⟩ := nameFrame_answered
  exact ⟨s', _, fun h3 => C56_session_order devGeneral (fun _ => ⟨2024, 1, 2, 3, 4⟩) _ _ _ (by decide) _ _ _ _ _ _ _ rfl h h3⟩

/-- A frame with RequestTransportMaxPayloadSize, transaction 5. -/
def askSize : Bytes := [0x55, 0x04, 0x00, 0x11, 0x00, 0x05, 0xE6]
/-- StartIDPS, transaction 1. -/
def startIDPSFrame : Bytes := [0x55, 0x04, 0x00, 0x38, 0x00, 0x01, 0xC3]
/-- IdentifyDeviceLingoes, which has no transaction. -/
def identifyFrame : Bytes := [0x55, 14, 0x00, 0x13, 0, 0, 0, 1, 0, 0, 0, 0, 0, 0, 0, 0, 0xDE]

/-- What a fresh server with the device of the code writes on some frames. -/
def writesOn (frames : List Bytes) : Out (List Bytes) :=
  processFrames devGeneral (fun _ => ⟨2024, 1, 2, 3, 4⟩) (frames.map fun f => .ok ⟨f, []⟩) (Srv.init DevGeneral.zero) >>=
    fun x => .ret x.2

/-- C55 fails: transactions having been enabled, the answer to RequestTransportMaxPayloadSize with transaction 5 carries it
if the request comes alone, but not if IdentifyDeviceLingoes follows in the same frame. -/
theorem C55_fails :
    writesOn [startIDPSFrame, askSize, identifyFrame] =
      .ret [[0x55, 6, 0, 2, 0, 1, 0, 56, 191], [0x55, 6, 0, 0x12, 0, 5, 255, 255, 229], [0x55, 4, 0, 2, 0, 0x13, 231]] ∧
    writesOn [startIDPSFrame, askSize ++ identifyFrame] =
      .ret [[0x55, 6, 0, 2, 0, 1, 0, 56, 191], [0x55, 4, 0, 0x12, 255, 255, 236], [0x55, 4, 0, 2, 0, 0x13, 231]] := by
  decide +kernel

/-- The same in one frame, on a server with transactions on: hypotheses of C53, C55, C56 (`_partial`s). -/
example : ∃ x, processFrame devGeneral (fun _ => ⟨2024, 1, 2, 3, 4⟩) ⟨true, (Srv.init DevGeneral.zero).ctx⟩
    ⟨askSize ++ askSize, []⟩ = .ret x ∧ x.2 = [[0x55, 6, 0, 0x12, 0, 5, 255, 255, 229], [0x55, 6, 0, 0x12, 0, 5, 255, 255, 229]] := by
  have h : (processFrame devGeneral (fun _ => ⟨2024, 1, 2, 3, 4⟩) ⟨true, (Srv.init DevGeneral.zero).ctx⟩
    ⟨askSize ++ askSize, []⟩ >>= fun x => Out.ret x.2) =
      .ret [[0x55, 6, 0, 0x12, 0, 5, 255, 255, 229], [0x55, 6, 0, 0x12, 0, 5, 255, 255, 229]] := by decide +kernel
  cases hp : processFrame devGeneral (fun _ => ⟨2024, 1, 2, 3, 4⟩) ⟨true, (Srv.init DevGeneral.zero).ctx⟩
    ⟨askSize ++ askSize, []⟩ with
  | panic => rw [hp] at h; cases h
  | ret x => rw [hp] at h; simp only [Out.bind_ret, Out.ret.injEq] at h; exact ⟨x, rfl, h⟩

/-! ## End of input -/

theorem readFrameLoop_takes {grow : Growth} {defs : List ReportDef} (rs : List (Except Err Report)) (buf : Slice)
    {rs' : List (Except Err Report)} {b : Slice} {x : Except Err Slice}
    (h : readFrameLoop grow defs rs buf = .ret (rs', b, x)) :
    rs'.length + 1 ≤ rs.length ∨ rs' = [] ∧ x = .error .eof := by
  induction rs generalizing buf with
  | nil => simp only [readFrameLoop, Out.ret.injEq, Prod.mk.injEq] at h; exact .inr ⟨h.1.symm, h.2.2.symm⟩
  | cons r rs ih =>
    have weak : ∀ buf, readFrameLoop grow defs rs buf = .ret (rs', b, x) →
        rs'.length + 1 ≤ (r :: rs).length ∨ rs' = [] ∧ x = .error .eof := by
      intro buf h
      rcases ih buf h with h | h
      · left; simp only [List.length_cons]; omega
      · exact .inr h
    cases r with
    | error e => simp only [readFrameLoop, Out.ret.injEq, Prod.mk.injEq] at h; left; rw [← h.1]; simp
    | ok r =>
      simp only [readFrameLoop] at h
      split at h
      · simp only [Out.ret.injEq, Prod.mk.injEq] at h; left; rw [← h.1]; simp
      · split at h
        · cases h
        · split at h
          · simp only [Out.ret.injEq, Prod.mk.injEq] at h; left; rw [← h.1]; simp
          · split at h
            · exact weak _ h
            · split at h
              · exact weak _ h
              · split at h
                · simp only [Out.ret.injEq, Prod.mk.injEq] at h; left; rw [← h.1]; simp
                · exact weak _ h

/-- After as many calls of `ReadFrame` as there are reads, only `io.EOF` is left: `serve` leaves nothing out. -/
theorem C57_reads_exhausted {grow : Growth} {defs : List ReportDef} (n : Nat) (rs : List (Except Err Report)) (buf : Slice)
    (hn : rs.length ≤ n) (xs : List (Except Err Slice)) (k : Nat) (h : frameReads grow defs (n + k) rs buf = .ret xs) :
    ∃ pre, frameReads grow defs n rs buf = .ret pre ∧ xs = pre ++ List.replicate k (.error .eof) := by
  induction n generalizing rs buf xs with
  | zero =>
    have hrs : rs = [] := List.length_eq_zero_iff.1 (by omega)
    subst hrs
    refine ⟨[], rfl, ?_⟩
    rw [Nat.zero_add] at h
    clear hn
    induction k generalizing buf xs with
    | zero => simp only [frameReads, Out.ret.injEq] at h; simp [← h]
    | succ k ih =>
      simp only [frameReads, readFrame, readFrameLoop, Out.bind_ret] at h
      cases hk : frameReads grow defs k [] buf.reset with
      | panic => rw [hk] at h; cases h
      | ret ys =>
        rw [hk] at h
        simp only [Out.bind_ret, Out.ret.injEq] at h
        rw [← h, ih _ _ hk]; rfl
  | succ n ih =>
    rw [Nat.add_right_comm] at h
    simp only [frameReads] at h ⊢
    cases hr : readFrame grow defs rs buf with
    | panic => rw [hr] at h; cases h
    | ret x =>
      obtain ⟨rs', b, x⟩ := x
      rw [hr] at h
      simp only [Out.bind_ret] at h ⊢
      have hl : rs'.length ≤ n := by
        rcases readFrameLoop_takes rs buf.reset hr with hl | ⟨rfl, _⟩
        · omega
        · simp
      cases hk : frameReads grow defs (n + k) rs' b with
      | panic => rw [hk] at h; cases h
      | ret ys =>
        rw [hk] at h
        simp only [Out.bind_ret, Out.ret.injEq] at h
        obtain ⟨pre, h1, h2⟩ := ih rs' b hl ys hk
        exact ⟨x :: pre, by rw [h1]; rfl, by rw [← h, h2]; rfl⟩

end Props
