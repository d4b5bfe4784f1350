import Verif.Lemmas.PacketWrite

/-! # Properties C01–C09: packets and checksums -/

namespace Props
open Go Spec Ipod

/-! ## C01 -/

/-- C01 (partial: every size 1..65535 except 256). A payload written behind any already written bytes and
read back from the written bytes comes back unchanged and the reader is left at the end of the packet,
whatever follows (`rest`) and whatever lies in the spare capacity behind the frame.
Missing: size 256, for which the code is wrong, see `C01_fails_at_256`. -/
theorem C01_packet_roundtrip_partial (p rest spare : Bytes) (h0 : 1 ≤ p.length)
    (h1 : p.length ≤ 65535) (h2 : p.length ≠ 256) :
    (writePacket [] p).2 = none ∧
    readPacket ⟨(writePacket [] p).1 ++ rest, spare⟩ = .ret (⟨rest, spare⟩, .ok p) := by
  obtain ⟨w, hw, he⟩ := writePacket_isPacket p h0 h1 h2
  rw [he]
  exact ⟨rfl, by simpa using readPacket_isPacket [] w p rest spare (by simp [Filler]) hw⟩

/-- C01, negation for size 256: no payload of 256 bytes ever comes back, whatever the spare capacity. -/
theorem C01_fails_at_256 (p spare : Bytes) (h : p.length = 256) :
    (writePacket [] p).2 = none ∧
    ∀ f, readPacket ⟨(writePacket [] p).1, spare⟩ ≠ .ret (f, .ok p) := by
  have hp : p ≠ [] := by rintro rfl; simp at h
  rw [writePacket_ne _ p hp]
  refine ⟨rfl, ?_⟩
  intro f hc
  obtain ⟨_, j, w, _, ⟨hdr, ck, hl, rfl, _⟩, he⟩ := readPacket_sound _ _ _ _ hc
  have := congrArg List.length he
  rw [h] at hl
  rcases hl with ⟨b, _, hb, _⟩ | ⟨hi, lo, _, rfl⟩
  · have := b.toNat_lt; omega
  · simp [h, writtenHeader] at this
    omega

/-- C01 as an exact characterisation over all representable sizes. -/
theorem C01_packet_roundtrip_iff (p spare : Bytes) (h0 : 1 ≤ p.length) (h1 : p.length ≤ 65535) :
    readPacket ⟨(writePacket [] p).1, spare⟩ = .ret (⟨[], spare⟩, .ok p) ↔ p.length ≠ 256 := by
  constructor
  · intro h h2; exact (C01_fails_at_256 p spare h2).2 _ h
  · intro h2; simpa using (C01_packet_roundtrip_partial p [] spare h0 h1 h2).2

/-- The hypotheses are met by short and by long payloads. -/
example : readPacket ⟨(writePacket [] [1, 2, 3]).1 ++ [9], [7, 7]⟩ = .ret (⟨[9], [7, 7]⟩, .ok [1, 2, 3]) :=
  (C01_packet_roundtrip_partial [1, 2, 3] [9] [7, 7] (by decide) (by decide) (by decide)).2
example : readPacket ⟨(writePacket [] (List.replicate 300 5)).1, []⟩ = .ret (⟨[], []⟩, .ok (List.replicate 300 5)) :=
  (C01_packet_roundtrip_iff (List.replicate 300 5) [] (by decide +kernel) (by decide +kernel)).2 (by decide +kernel)
example : ∀ f, readPacket ⟨(writePacket [] (List.replicate 256 5)).1, []⟩ ≠ .ret (f, .ok (List.replicate 256 5)) :=
  (C01_fails_at_256 (List.replicate 256 5) [] (by decide +kernel)).2

/-! ## C02 -/

/-- C02. Any concatenation of well-formed packets and filler is read by successive calls as exactly the
payloads in order, then `io.EOF` for ever (any number `k` of further calls). -/
theorem C02_stream_in_order (ps : List Bytes) (w spare : Bytes) (h : Stream ps w) (k : Nat) :
    callReader (ps.length + k) ⟨w, spare⟩ =
      .ret (ps.map .ok ++ List.replicate k (.error .eof)) := by
  induction h with
  | done j hj => simpa using callReader_filler k j spare hj
  | more j w rest p ps hj hw _ ih =>
    have : (p :: ps).length + k = (ps.length + k) + 1 := by simp; omega
    rw [this]
    simp only [callReader, readPacket_isPacket j w p rest spare hj hw, ih, Out.bind_ret,
      List.map_cons, List.cons_append]

/-- Two packets with other bytes before, between and after them. -/
example : callReader 4 ⟨[9] ++ [0x55, 2, 1, 2, 251] ++ ([] ++ [0x55, 0, 0, 1, 7, 248] ++ [3]), [0x55]⟩ =
    .ret [.ok [1, 2], .ok [7], .error .eof, .error .eof] :=
  C02_stream_in_order [[1, 2], [7]] _ _
    (.more [9] _ _ _ _ (by decide) ⟨[2], 251, .inl ⟨2, by decide, by decide, rfl⟩, rfl, by decide⟩
      (.more [] _ _ _ _ (by decide) ⟨[0, 0, 1], 248, .inr ⟨0, 1, by decide, rfl⟩, rfl, by decide⟩
        (.done [3] (by decide)))) 2

/-- What one writer produces from a list of payloads is such a stream. -/
theorem C02_written_is_stream (ps : List Bytes)
    (h : ∀ p ∈ ps, 1 ≤ p.length ∧ p.length ≤ 65535 ∧ p.length ≠ 256) :
    Stream ps (writePackets newPacketWriter ps) := by
  have key : ∀ (ps : List Bytes) (f : Bytes),
      (∀ p ∈ ps, 1 ≤ p.length ∧ p.length ≤ 65535 ∧ p.length ≠ 256) →
      ∃ w, writePackets f ps = f ++ w ∧ Stream ps w := by
    intro ps
    induction ps with
    | nil => intro f _; exact ⟨[], by simp [writePackets], .done [] (by simp [Filler])⟩
    | cons p ps ih =>
      intro f hp
      obtain ⟨hp1, hp2, hp3⟩ := hp p (by simp)
      obtain ⟨w, hw, he⟩ := writePacket_isPacket p hp1 hp2 hp3
      obtain ⟨w', hw', hs⟩ := ih (f ++ w) (fun q hq => hp q (by simp [hq]))
      refine ⟨[] ++ w ++ w', ?_, .more [] w w' p ps (by simp [Filler]) hw hs⟩
      simp only [writePackets, List.foldl_cons, he]
      simp only [writePackets] at hw'
      rw [hw']; simp
  obtain ⟨w, hw, hs⟩ := key ps newPacketWriter h
  rw [hw]; exact hs

example : Stream [[1, 2], List.replicate 300 5] (writePackets newPacketWriter [[1, 2], List.replicate 300 5]) :=
  C02_written_is_stream _ (by decide +kernel)

/-- Two packets (one in each header form) with filler before, between and behind them. -/
example : Stream [[1, 2], [7]] ([9] ++ [0x55, 2, 1, 2, 251] ++ ([] ++ [0x55, 0, 0, 1, 7, 248] ++ [3])) :=
  .more [9] _ _ _ _ (by decide) ⟨[2], 251, .inl ⟨2, by decide, by decide, rfl⟩, rfl, by decide⟩
    (.more [] _ _ _ _ (by decide) ⟨[0, 0, 1], 248, .inr ⟨0, 1, by decide, rfl⟩, rfl, by decide⟩
      (.done [3] (by decide)))

/-! ## C03 -/

/-- C03. `ReadPacket` succeeds with payload `p` exactly when the unread frame is filler, then a well-formed
packet carrying `p`, and it leaves exactly what follows; the spare bytes are irrelevant. -/
theorem C03_success_iff (d spare p : Bytes) (f : Slice) :
    readPacket ⟨d, spare⟩ = .ret (f, .ok p) ↔
      f.spare = spare ∧ ∃ j w, Filler j ∧ IsPacket p w ∧ d = j ++ w ++ f.data := by
  constructor
  · exact readPacket_sound d spare p f
  · rintro ⟨rfl, j, w, hj, hw, rfl⟩
    exact readPacket_isPacket j w p f.data f.spare hj hw

example : readPacket ⟨[9, 0x55, 2, 1, 2, 251, 4], [1]⟩ = .ret (⟨[4], [1]⟩, .ok [1, 2]) :=
  (C03_success_iff _ _ _ _).2 ⟨rfl, [9], [0x55, 2, 1, 2, 251], by decide,
    ⟨[2], 251, .inl ⟨2, by decide, by decide, rfl⟩, rfl, by decide⟩, rfl⟩

/-! ## C04 -/

theorem byteSum_set_ne (a : Bytes) (i : Nat) (b : UInt8) (hi : i < a.length) (hb : a[i] ≠ b)
    (hs : byteSum a % 256 = 0) : byteSum (a.set i b) % 256 ≠ 0 := by
  have e1 : a = a.take i ++ a[i] :: a.drop (i + 1) := by simp
  have e2 : a.set i b = a.take i ++ b :: a.drop (i + 1) := by
    rw [List.set_eq_take_append_cons_drop, if_pos hi]
  rw [e1, byteSum_append, byteSum_cons] at hs
  rw [e2, byteSum_append, byteSum_cons]
  intro h
  apply hb
  apply UInt8.toNat_inj.1
  have := a[i].toNat_lt
  have := b.toNat_lt
  omega

/-- C04. In a well-formed packet, replacing any byte of the payload or the checksum byte (all bytes from
index `w.length - 1 - p.length` on) by a different one makes `ReadPacket` report a checksum error,
whatever precedes (filler), follows, or lies in the spare capacity. -/
theorem C04_corruption_detected (j w p rest spare : Bytes) (hj : Filler j) (hw : IsPacket p w)
    (i : Nat) (hlo : w.length - 1 - p.length ≤ i) (hi : i < w.length) (b : UInt8) (hb : w[i] ≠ b) :
    ∃ f, readPacket ⟨j ++ w.set i b ++ rest, spare⟩ = .ret (f, .error Err.checksum) := by
  obtain ⟨hdr, ck, hh, rfl, hs⟩ := hw
  have hpos : 1 ≤ hdr.length := by
    rcases hh with ⟨_, _, _, rfl⟩ | ⟨_, _, _, rfl⟩ <;> simp
  have hlen3 : 3 ≤ hdr.length + p.length + 1 := by
    rcases hh with ⟨b', hb', hn, rfl⟩ | ⟨hi, lo, hn, rfl⟩
    · have : p.length ≠ 0 := by
        intro h0
        rw [hn] at h0
        exact hb' (UInt8.toNat_inj.1 (by simpa using h0))
      simp; omega
    · simp; omega
  have hlo' : hdr.length + 1 ≤ i := by
    simp at hlo; omega
  obtain ⟨m, rfl⟩ : ∃ m, i = (hdr.length + m) + 1 := ⟨i - hdr.length - 1, by omega⟩
  have hm : m < (p ++ [ck]).length := by simp at hi; simp; omega
  have eset : ((0x55 : UInt8) :: (hdr ++ p ++ [ck])).set ((hdr.length + m) + 1) b
      = 0x55 :: (hdr ++ (p ++ [ck]).set m b) := by
    rw [List.set_cons_succ, List.append_assoc, List.set_append_right _ _ (by omega)]
    simp
  have hbody : byteSum ((hdr ++ (p ++ [ck])).set (hdr.length + m) b) % 256 ≠ 0 := by
    apply byteSum_set_ne _ _ _ (by simp at hm ⊢; omega)
    · simpa [List.append_assoc] using hb
    · simpa using hs
  rw [List.set_append_right _ _ (by omega)] at hbody
  simp only [Nat.add_sub_cancel_left] at hbody
  have hl : ((p ++ [ck]).set m b).length = p.length + 1 := by simp
  generalize hq : (p ++ [ck]).set m b = q at *
  have e : j ++ ((0x55 : UInt8) :: (hdr ++ p ++ [ck])).set ((hdr.length + m) + 1) b ++ rest
      = j ++ 0x55 :: (hdr ++ (q ++ rest)) := by rw [eset]; simp
  rw [e, readPacket_start j _ spare hj,
    afterStart_header _ spare _ _ (parseHeader_of_LenHeader hh _ (by simp; omega)),
    if_neg (by simp; omega)]
  have ht : (hdr ++ (q ++ rest) ++ spare).take (hdr.length + p.length + 1) = hdr ++ q := by
    have : hdr ++ (q ++ rest) ++ spare = (hdr ++ q) ++ (rest ++ spare) := by simp
    rw [this, List.take_append_of_le_length (by simp; omega), List.take_of_length_le (by simp; omega)]
  rw [ht, if_pos hbody]
  exact ⟨_, rfl⟩

/-- C04 for what `WritePacket` writes. -/
theorem C04_written_corruption_detected (p rest spare : Bytes) (h0 : 1 ≤ p.length)
    (h1 : p.length ≤ 65535) (h2 : p.length ≠ 256) (i : Nat)
    (hlo : (writePacket [] p).1.length - 1 - p.length ≤ i) (hi : i < (writePacket [] p).1.length)
    (b : UInt8) (hb : (writePacket [] p).1[i] ≠ b) :
    ∃ f, readPacket ⟨(writePacket [] p).1.set i b ++ rest, spare⟩ = .ret (f, .error Err.checksum) := by
  obtain ⟨w, hw, he⟩ := writePacket_isPacket p h0 h1 h2
  have he : (writePacket [] p).1 = w := by rw [he]; simp
  subst he
  exact C04_corruption_detected [] _ p rest spare (by simp [Filler]) hw i hlo hi b hb

example : ∃ f, readPacket ⟨(writePacket [] [1, 2]).1.set 3 8 ++ [4], [5]⟩ = .ret (f, .error Err.checksum) :=
  C04_written_corruption_detected [1, 2] [4] [5] (by decide) (by decide) (by decide) 3 (by decide) (by decide) 8 (by decide)

/-- Altering the second payload byte of a concrete packet. -/
example : ∃ f, readPacket ⟨[9] ++ [0x55, 2, 1, 2, 251].set 3 8 ++ [], []⟩ = .ret (f, .error Err.checksum) :=
  C04_corruption_detected [9] [0x55, 2, 1, 2, 251] [1, 2] [] [] (by decide)
    ⟨[2], 251, .inl ⟨2, by decide, by decide, rfl⟩, rfl, by decide⟩ 3 (by decide) (by decide) 8 (by decide)

/-! ## C05 -/

/-- C05, one call: `io.EOF` is returned exactly when no start byte is left, and then nothing changes;
any other outcome (packet or error) consumes a non-empty prefix of the frame, containing a start byte. -/
theorem C05_progress (d s : Bytes) (f : Slice) (r : PktResult) (h : readPacket ⟨d, s⟩ = .ret (f, r)) :
    (r = .error .eof ↔ (0x55 : UInt8) ∉ d) ∧
    (r = .error .eof → f = ⟨d, s⟩) ∧
    (r ≠ .error .eof → ∃ pre, pre ≠ [] ∧ d = pre ++ f.data ∧ (0x55 : UInt8) ∈ pre) := by
  rcases readPacket_progress d s f r h with ⟨h1, h2, h3⟩ | ⟨h1, h2, _, pre, h4, h5⟩
  · exact ⟨⟨fun _ => h3, fun _ => h1⟩, fun _ => h2, fun hr => absurd h1 hr⟩
  · exact ⟨⟨fun hr => absurd hr h1, fun hf => absurd hf h2⟩, fun hr => absurd hr h1,
      fun _ => ⟨pre, List.ne_nil_of_mem h5, h4, h5⟩⟩

example : ∃ pre, pre ≠ [] ∧ [0x55, 1, 7, 0, 0x55] = pre ++ [1, 7, 0, 0x55] ∧ (0x55 : UInt8) ∈ pre :=
  (C05_progress [0x55, 1, 7, 0, 0x55] [] ⟨[1, 7, 0, 0x55], []⟩ (.error Err.checksum) (by decide)).2.2 (by decide)

/-- C05, the loop: however often `ReadPacket` is called, the results are at most as many non-EOF results
as the frame has start bytes, followed by `io.EOF` for ever. -/
theorem C05_loop_terminates (n : Nat) (d s : Bytes) (rs : List PktResult)
    (h : callReader n ⟨d, s⟩ = .ret rs) :
    ∃ xs k, rs = xs ++ List.replicate k (.error .eof) ∧ (∀ x ∈ xs, x ≠ .error .eof) ∧
      xs.length ≤ d.count 0x55 ∧ xs.length + k = n := by
  induction n generalizing d s rs with
  | zero =>
    simp only [callReader, Out.ret.injEq] at h
    exact ⟨[], 0, by simp [← h], by simp, by simp, rfl⟩
  | succ n ih =>
    simp only [callReader] at h
    cases hr : readPacket ⟨d, s⟩ with
    | panic => rw [hr] at h; simp at h
    | ret fr =>
      obtain ⟨⟨d', s'⟩, r⟩ := fr
      rw [hr] at h
      simp only [Out.bind_ret] at h
      cases hc : callReader n ⟨d', s'⟩ with
      | panic => rw [hc] at h; simp at h
      | ret rs' =>
        rw [hc] at h
        simp only [Out.bind_ret, Out.ret.injEq] at h
        subst h
        rcases readPacket_progress d s _ r hr with ⟨h1, h2, h3⟩ | ⟨h1, _, _, pre, h4, h5⟩
        · simp only [Slice.mk.injEq] at h2
          obtain ⟨rfl, rfl⟩ := h2
          rw [callReader_filler n _ _ h3] at hc
          simp only [Out.ret.injEq] at hc
          subst hc h1
          exact ⟨[], n + 1, by simp [List.replicate_succ], by simp, by simp, by simp⟩
        · obtain ⟨xs, k, rfl, hx, hl, hk⟩ := ih d' s' rs' hc
          refine ⟨r :: xs, k, by simp, by simpa using ⟨h1, hx⟩, ?_, by simp; omega⟩
          have : 0 < pre.count 0x55 := List.count_pos_iff.2 h5
          simp only at h4
          rw [h4, List.count_append]
          simp; omega

example : ∃ (xs : List PktResult) (k : Nat), [.error Err.checksum, .ok [7], .error .eof, .error .eof] = xs ++ List.replicate k (.error .eof) ∧
    (∀ x ∈ xs, x ≠ .error .eof) ∧ xs.length ≤ 2 ∧ xs.length + k = 4 :=
  C05_loop_terminates 4 [0x55, 1, 7, 0, 0x55, 1, 7, 248] [] _ (by decide)

example : callReader 4 ⟨[0x55, 1, 7, 0, 0x55, 1, 7, 248], []⟩ =
    .ret [.error Err.checksum, .ok [7], .error .eof, .error .eof] := by decide

/-! ## C06 -/

/-- C06, exact characterisation: `ReadPacket` panics iff behind the first start byte there are at least
three bytes, the header there announces more bytes than the frame has left, and either this exceeds even
the capacity of the underlying array, or the stale bytes behind the frame make the checksum come out 0. -/
theorem C06_panics_iff (d s : Bytes) :
    readPacket ⟨d, s⟩ = .panic ↔
      ∃ j hdr body n, d = j ++ 0x55 :: (hdr ++ body) ∧ Filler j ∧ LenHeader n hdr ∧
        3 ≤ (hdr ++ body).length ∧ body.length < n + 1 ∧
        ((body ++ s).length < n + 1 ∨ byteSum (hdr ++ (body ++ s).take (n + 1)) % 256 = 0) := by
  have main : ∀ (r : Bytes) (off len : Nat), parseHeader r = .ok (off, len) → off ≤ r.length →
      (afterStart r s = .panic ↔ (r.drop off).length < len + 1 ∧
        ((r.drop off ++ s).length < len + 1 ∨
          byteSum (r.take off ++ (r.drop off ++ s).take (len + 1)) % 256 = 0)) := by
    intro r off len hh hoff
    rw [afterStart_header r s off len hh]
    have e : (r ++ s).take (off + len + 1) = r.take off ++ (r.drop off ++ s).take (len + 1) := by
      rw [Nat.add_assoc, List.take_add, List.take_append_of_le_length hoff,
        List.drop_append_of_le_length hoff]
    rw [← e]
    simp only [List.length_append, List.length_drop]
    split
    · simp; omega
    · split
      · simp; omega
      · split
        · simp; omega
        · simp; omega
  constructor
  · intro h
    rcases filler_or_start d with hf | ⟨j, r, rfl, hj⟩
    · rw [readPacket_filler d s hf] at h; simp at h
    · rw [readPacket_start j r s hj] at h
      by_cases h3 : r.length < 3
      · rw [afterStart_short r s h3] at h; simp at h
      · obtain ⟨off, len, hh, hoff, hl, _, _⟩ := parseHeader_ok r (by omega)
        obtain ⟨h1, h2⟩ := (main r off len hh hoff).1 h
        exact ⟨j, r.take off, r.drop off, len, by simp, hj, hl, by simp; omega, h1, h2⟩
  · rintro ⟨j, hdr, body, n, rfl, hj, hl, h3, h1, h2⟩
    rw [readPacket_start j _ s hj]
    refine (main (hdr ++ body) hdr.length n (parseHeader_of_LenHeader hl _ h3) (by simp)).2 ?_
    simpa using ⟨h1, by simpa using h2⟩

/-- C06, negation: a four-byte frame announcing 255 bytes crashes the reader. -/
theorem C06_fails : ∃ d s : Bytes, readPacket ⟨d, s⟩ = .panic := ⟨[0x55, 0xff, 1, 2], [], by decide⟩

/-- C06 (partial): the reader never panics on a frame in which the length announced behind the first start
byte fits the frame. Missing: frames announcing more bytes than they contain, see `C06_fails`,
`C06_panics_iff`. -/
theorem C06_no_panic_partial (d s : Bytes)
    (h : ∀ j hdr body n, d = j ++ 0x55 :: (hdr ++ body) → Filler j → LenHeader n hdr →
      n + 1 ≤ body.length) :
    ∃ f r, readPacket ⟨d, s⟩ = .ret (f, r) := by
  cases hr : readPacket ⟨d, s⟩ with
  | ret x => exact ⟨x.1, x.2, rfl⟩
  | panic =>
    obtain ⟨j, hdr, body, n, hd, hj, hl, _, h1, _⟩ := (C06_panics_iff d s).1 hr
    have := h j hdr body n hd hj hl
    omega

example : ∃ f r, readPacket ⟨[9, 9], [1]⟩ = .ret (f, r) :=
  C06_no_panic_partial [9, 9] [1] (by
    intro j hdr body n h
    have : (0x55 : UInt8) ∈ [(9 : UInt8), 9] := by rw [h]; simp
    simp at this)

/-- Stale bytes behind a truncated frame can also crash it: length 4 announced, 3 bytes left,
the stale byte completes the checksum. -/
example : readPacket ⟨[0x55, 2, 1, 2], [251]⟩ = .panic :=
  (C06_panics_iff _ _).2 ⟨[], [2], [1, 2], 2, rfl, by decide, .inl ⟨2, by decide, by decide, rfl⟩,
    by decide, by decide, .inr (by decide)⟩

/-! ## C07 -/

/-- C07. The frame after any sequence of calls is the old frame followed by one encoding per non-empty
payload, in order; the encoding is a function of the payload alone (what a fresh writer would contain). -/
theorem C07_only_appends (f : Bytes) (ps : List Bytes) :
    writePackets f ps =
      f ++ ((ps.filter (· ≠ [])).map (fun p => (writePacket newPacketWriter p).1)).flatten := by
  induction ps generalizing f with
  | nil => simp [writePackets]
  | cons p ps ih =>
    simp only [writePackets, List.foldl_cons] at ih ⊢
    rw [ih]
    by_cases hp : p = []
    · subst hp; simp [writePacket_nil]
    · rw [List.filter_cons_of_pos (by simpa using hp)]
      simp [writePacket_ne _ p hp, newPacketWriter]

/-- C07, results: an error exactly for the empty payload, which changes nothing. -/
theorem C07_error_iff_empty (f p : Bytes) :
    ((writePacket f p).2 ≠ none ↔ p = []) ∧ (p = [] → (writePacket f p).1 = f) := by
  by_cases hp : p = []
  · subst hp; simp [writePacket_nil]
  · simp [writePacket_ne f p hp, hp]

example : writePackets [9] [[1], [], [2]] = [9, 0x55, 1, 1, 254, 0x55, 1, 2, 253] := by decide

/-! ## C08 -/

/-- C08 (partial: all sizes 1..65535 but 256). The bytes appended are start byte, canonical length header,
payload, and the byte that completes the sum to 0 mod 256. Missing: size 256, see `C08_fails_at_256`. -/
theorem C08_wire_format_partial (f p : Bytes) (h0 : 1 ≤ p.length) (h1 : p.length ≤ 65535)
    (h2 : p.length ≠ 256) :
    ∃ ck, writePacket f p = (f ++ 0x55 :: (canonicalHeader p.length ++ p ++ [ck]), none) ∧
      byteSum (canonicalHeader p.length ++ p ++ [ck]) % 256 = 0 := by
  refine ⟨checksum (canonicalHeader p.length ++ p), ?_, byteSum_checksum _⟩
  rw [writePacket_ne f p (by rintro rfl; simp at h0), writtenHeader_eq _ h1 h2]

example : ∃ ck, writePacket [9] [1, 2] = ([9] ++ 0x55 :: (canonicalHeader 2 ++ [1, 2] ++ [ck]), none) ∧
    byteSum (canonicalHeader 2 ++ [1, 2] ++ [ck]) % 256 = 0 :=
  C08_wire_format_partial [9] [1, 2] (by decide) (by decide) (by decide)

/-- C08, negation: a 256-byte payload gets the one-byte header 0x00. -/
theorem C08_fails_at_256 (f p : Bytes) (h : p.length = 256) :
    ∃ ck, (writePacket f p).1 = f ++ 0x55 :: ([0x00] ++ p ++ [ck]) ∧
      ∀ ck', (writePacket f p).1 ≠ f ++ 0x55 :: (canonicalHeader p.length ++ p ++ [ck']) := by
  rw [writePacket_ne f p (by rintro rfl; simp at h), h]
  refine ⟨_, rfl, ?_⟩
  intro ck' he
  have := congrArg List.length he
  simp [writtenHeader, canonicalHeader] at this

example : ∃ ck, (writePacket [9] (List.replicate 256 7)).1 = [9] ++ 0x55 :: ([0x00] ++ List.replicate 256 7 ++ [ck]) :=
  (C08_fails_at_256 [9] (List.replicate 256 7) List.length_replicate).imp fun _ h => h.1

/-- Beyond the protocol limit the announced length is silently reduced mod 65536. -/
theorem C08_oversize (f p : Bytes) (h : 65535 < p.length) :
    ∃ hi lo ck, writePacket f p = (f ++ 0x55 :: ([0, hi, lo] ++ p ++ [ck]), none) ∧
      hi.toNat * 256 + lo.toNat = p.length % 65536 := by
  rw [writePacket_ne f p (by rintro rfl; simp at h)]
  refine ⟨(UInt16.ofNat p.length >>> 8).toUInt8, (UInt16.ofNat p.length).toUInt8,
    checksum (writtenHeader p.length ++ p), ?_, ?_⟩
  · rw [show writtenHeader p.length = [(0x00 : UInt8), (UInt16.ofNat p.length >>> 8).toUInt8, (UInt16.ofNat p.length).toUInt8] by
      simp only [writtenHeader]; rw [if_pos (by simp only [largePacketMinLen]; omega)]]
  · simp [UInt16.toNat_shiftRight, Nat.shiftRight_eq_div_pow]
    omega

example : ∃ hi lo ck, writePacket [] (List.replicate 65539 7) = ([] ++ 0x55 :: ([0, hi, lo] ++ List.replicate 65539 7 ++ [ck]), none) ∧
    hi.toNat * 256 + lo.toNat = (List.replicate 65539 (7 : UInt8)).length % 65536 :=
  C08_oversize [] (List.replicate 65539 7) (by rw [List.length_replicate]; omega)

example : writePacket [] [1, 2] = ([0x55, 2, 1, 2, 251], none) := by decide
example : ((writePacket [] (List.replicate 257 0)).1).take 4 = [0x55, 0, 1, 1] := by decide +kernel

/-! ## C09 -/

/-- C09: two's complement of the byte sum. -/
theorem C09_checksum_value (p : Bytes) : (byteSum p + (checksum p).toNat) % 256 = 0 := by
  rw [checksum_toNat]; omega

/-- C09: appending the checksum makes the checksum zero, and only that byte does. -/
theorem C09_checksum_completes (p : Bytes) (b : UInt8) : checksum (p ++ [b]) = 0 ↔ b = checksum p := by
  rw [checksum_eq_zero, byteSum_append, ← UInt8.toNat_inj, checksum_toNat]
  simp
  have := b.toNat_lt
  omega

/-- C09: independent of the order of the bytes. -/
theorem C09_checksum_perm (p q : Bytes) (h : p.Perm q) : checksum p = checksum q := by
  apply UInt8.toNat_inj.1
  have : byteSum p = byteSum q := (h.map UInt8.toNat).sum_nat
  rw [checksum_toNat, checksum_toNat, this]

example : checksum [1, 2, 3] = checksum [2, 1, 3] := C09_checksum_perm _ _ (.swap ..)

/-- C09: a hasher fed any chunks, starting anywhere in its life after `Reset` or `NewCRC8`, agrees with
`Checksum` of the concatenation. -/
theorem C09_crc8_chunks (c0 : Crc8) (chunks : List Bytes) :
    (chunks.foldl (fun c p => (c.write p).1) c0.reset).sum8 = checksum chunks.flatten ∧
    (chunks.foldl (fun c p => (c.write p).1) Crc8.new).sum8 = checksum chunks.flatten := by
  have key : ∀ (chunks : List Bytes) (c : Crc8),
      (chunks.foldl (fun c p => (c.write p).1) c).crc = chunks.flatten.foldl (fun crc v => crc + v) c.crc := by
    intro chunks
    induction chunks with
    | nil => intro c; rfl
    | cons x xs ih => intro c; simp only [List.foldl_cons, ih, List.flatten_cons, List.foldl_append]; rfl
  constructor <;> simp only [Crc8.sum8, key, checksum] <;> rfl

/-- C09: `Write` reports all bytes written; `Sum` appends exactly the checksum byte, leaves the state
alone; sizes are 1. -/
theorem C09_crc8_iface (c : Crc8) (p inp : Bytes) :
    (c.write p).2 = p.length ∧ c.sum inp = (c, inp ++ [c.sum8]) ∧ (c.sum inp).2.length = inp.length + c.size ∧
    c.reset = Crc8.new := by
  refine ⟨rfl, rfl, by simp [Crc8.sum, Crc8.size], rfl⟩

example : checksum [1, 2, 253] = 0 ∧ checksum [2, 1, 0xfd] = checksum [0xfd, 2, 1] := by decide
example : checksum [1, 2] = 0xfd := by decide

end Props
