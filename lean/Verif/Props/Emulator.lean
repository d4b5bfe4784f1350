import Verif.Lemmas.EmulatorLengths
import Verif.Props.Server

/-!
# C110: the emulated iPod as a whole, byte for byte
-/

namespace Props
open Go Spec Ipod

/-- C110. A session goes on to its end exactly if the specified iPod lives through it; what is written are exactly the bytes the
specified iPod writes, and it is left in the specified state. The server may be in any state whatever at the beginning. -/
theorem C110_session (clock : Clock) (reads : List (Except Err Slice)) (s : Srv DevGeneral) (p' : Pod) (w : List Bytes) :
    (∃ s', processFrames devGeneral clock reads s = .ret (s', w) ∧
        p' = ⟨s'.mode, s'.ctx.dev.uimode, s'.ctx.counter.toUInt16, s'.ctx.ticks⟩) ↔
      Lives clock ⟨s.mode, s.ctx.dev.uimode, s.ctx.counter.toUInt16, s.ctx.ticks⟩ reads p' w := by
  constructor
  · rintro ⟨s', h, rfl⟩
    exact lives_of_ret clock reads s s' w h
  · intro h
    cases hr : processFrames devGeneral clock reads s with
    | panic => exact (not_lives_dies h (dies_of_panic clock reads s hr)).elim
    | ret x =>
      obtain ⟨s', w'⟩ := x
      obtain ⟨rfl, rfl⟩ := lives_unique h (lives_of_ret clock reads s s' w' hr)
      exact ⟨s', rfl, rfl⟩

/-- C110. The process crashes exactly if the specified iPod dies. -/
theorem C110_crash (clock : Clock) (reads : List (Except Err Slice)) (s : Srv DevGeneral) :
    processFrames devGeneral clock reads s = .panic ↔
      Dies clock ⟨s.mode, s.ctx.dev.uimode, s.ctx.counter.toUInt16, s.ctx.ticks⟩ reads := by
  constructor
  · exact dies_of_panic clock reads s
  · intro h
    cases hr : processFrames devGeneral clock reads s with
    | panic => rfl
    | ret x => exact (not_lives_dies (lives_of_ret clock reads s x.1 x.2 hr) h).elim

/-- C110. A session of the process from its start: the specified iPod, just switched on. -/
theorem C110_start (clock : Clock) (reads : List (Except Err Slice)) (w : List Bytes) :
    ((∃ s', processFrames devGeneral clock reads (Srv.init DevGeneral.zero) = .ret (s', w)) ↔
      ∃ p', Lives clock Pod.new reads p' w) ∧
    (processFrames devGeneral clock reads (Srv.init DevGeneral.zero) = .panic ↔ Dies clock Pod.new reads) := by
  refine ⟨⟨?_, ?_⟩, C110_crash clock reads _⟩
  · rintro ⟨s', h⟩
    exact ⟨_, (C110_session clock reads _ _ w).1 ⟨s', h, rfl⟩⟩
  · rintro ⟨p', h⟩
    obtain ⟨s', h, _⟩ := (C110_session clock reads (Srv.init DevGeneral.zero) p' w).2 h
    exact ⟨s', h⟩

/-- C110. The bytes written for a packet are that packet, framed, unless it has 256 bytes (or more than 65535). -/
theorem C110_frame (p : Bytes) (h0 : p ≠ []) (h1 : p.length ≤ 65535) : IsPacket p (frameBytes p) ↔ p.length ≠ 256 := by
  rw [← frame_bytes h0]
  constructor
  · intro h
    exact (frameOf_frameFor_ok (.packet h)).2
  · intro h2
    have := frameOf_frameFor (r := .ok p) (fun q e => by cases e; exact ⟨h0, h1, h2⟩)
    cases this with
    | packet h => exact h

example : IsPacket [0x00, 0x07] (frameBytes [0x00, 0x07]) ∧ ¬ IsPacket (List.replicate 256 7) (frameBytes (List.replicate 256 7)) :=
  ⟨(C110_frame [0x00, 0x07] (by decide) (by decide)).2 (by decide),
    fun h => (C110_frame (List.replicate 256 7) (fun h => by cases h) (by rw [List.length_replicate]; decide)).1 h List.length_replicate⟩

/-- C110. One packet: the next thing the process does with a packet is what the specified iPod does: it crashes, or what it
sends - command by command, as bytes - is what the iPod says. -/
theorem C110_packet (clock : Clock) (s : Srv DevGeneral) (packet : Bytes) :
    match Pod.hears clock ⟨s.mode, s.ctx.dev.uimode, s.ctx.counter.toUInt16, s.ctx.ticks⟩ packet with
    | none => unmarshalCmd s.mode packet = .panic
    | some (p', ss) => ∃ m' cmd e c' new, unmarshalCmd s.mode packet = .ret (m', cmd, e) ∧
        handlePacket devGeneral clock cmd s.ctx = .ret c' ∧ c'.out = s.ctx.out ++ new ∧
        p' = ⟨m', c'.dev.uimode, c'.counter.toUInt16, c'.ticks⟩ ∧ new.length = ss.length ∧
        ∀ (i : Nat) (x : Command) (y : Say), new[i]? = some x → ss[i]? = some y →
          ∀ m'', (marshalCmd m'' x).2.toOption = y.packet (marshalCmd m'' x).1 := by
  rcases packet_heard s.mode s.ctx clock packet with ⟨h1, h2⟩ | ⟨m', cmd, e, h1, c', new, h2, h3, h4⟩
  · have h2 : Pod.hears clock ⟨s.mode, s.ctx.dev.uimode, s.ctx.counter.toUInt16, s.ctx.ticks⟩ packet = none := h2
    rw [h2]; exact h1
  · have h4 : Pod.hears clock ⟨s.mode, s.ctx.dev.uimode, s.ctx.counter.toUInt16, s.ctx.ticks⟩ packet =
        some (podOf m' c', new.map sayOf) := h4
    rw [h4]
    refine ⟨m', cmd, e, c', new, h1, h2, h3, rfl, by simp, ?_⟩
    intro i x y hx hy m''
    rw [List.getElem?_map, hx] at hy
    cases hy
    rw [marshalCmd_eq, Say.packet, sayOf]
    simp only
    cases encodePayload x.payload with
    | error e => rfl
    | ok b =>
      simp only [Except.toOption, Option.map_some, trxBytes_eq]
      cases handleCmdID m'' x.id <;> rfl

/-- C110. What the iPod says in answer to any packet whatever has at least 2 and at most 27 bytes, with the number and the
transaction; only the acknowledgement of identification tokens may be longer, at most 1280 bytes. -/
theorem C110_lengths (clock : Clock) (p p' : Pod) (packet : Bytes) (ss : List Say) (h : p.hears clock packet = some (p', ss)) (s : Say)
    (hs : s ∈ ss) (on : Bool) (q : Bytes) (hq : s.packet on = some q) :
    2 ≤ q.length ∧ (q.length ≤ 27 ∨ (s.lingo = 0x00 ∧ s.cmd = 0x3A ∧ q.length ≤ 1280)) := by
  unfold Say.packet at hq
  cases hb : s.body with
  | none => rw [hb] at hq; cases hq
  | some b =>
    rw [hb] at hq
    simp only [Option.map_some, Option.some.injEq] at hq
    have hi : (idBytes s.lingo s.cmd).length = if s.lingo = 0x04 then 3 else 2 := by
      unfold idBytes; split <;> rfl
    have ht : (if on then transactionBytes s.trx else []).length ≤ 2 := by
      unfold transactionBytes
      split
      · split <;> simp
      · simp
    rw [← hq, List.length_append, List.length_append, hi]
    rcases hears_brief h s hs with h | ⟨h1, h2, h3⟩
    · have := h b hb
      split <;> omega
    · have := h3 b hb
      rw [h1]
      rw [if_neg (by decide)]
      exact ⟨by omega, .inr ⟨rfl, h2, by omega⟩⟩

theorem hearsAll_mem {clock : Clock} {packets : List Bytes} : ∀ {p p1 : Pod} {ss : List Say}, p.hearsAll clock packets = some (p1, ss) →
    ∀ {y : Say}, y ∈ ss → ∃ (a b : Pod) (ss' : List Say) (packet : Bytes), a.hears clock packet = some (b, ss') ∧ y ∈ ss' := by
  induction packets with
  | nil =>
    intro p p1 ss h y hy
    simp only [Pod.hearsAll, Option.some.injEq, Prod.mk.injEq] at h
    rw [← h.2] at hy; cases hy
  | cons packet more ih =>
    intro p p1 ss h y hy
    simp only [Pod.hearsAll] at h
    cases h1 : p.hears clock packet with
    | none => simp only [h1] at h; cases h
    | some x =>
      obtain ⟨pa, sa⟩ := x
      simp only [h1] at h
      cases h2 : pa.hearsAll clock more with
      | none => simp only [h2] at h; cases h
      | some z =>
        obtain ⟨pb, sb⟩ := z
        simp only [h2, Option.some.injEq, Prod.mk.injEq] at h
        rw [← h.2] at hy
        rcases List.mem_append.1 hy with hy | hy
        · exact ⟨p, pa, sa, packet, h1, hy⟩
        · exact ih h2 hy

/-- C110. Whatever the accessory sends, in whatever frames: everything written is nothing at all (an answer the iPod is not able to
write), a proper frame around one packet, or, if that packet is an acknowledgement of identification tokens of exactly 256 bytes, the
same with the length byte 0, which is no proper frame. -/
theorem C110_written (clock : Clock) (reads : List (Except Err Slice)) (s s' : Srv DevGeneral) (w : List Bytes)
    (h : processFrames devGeneral clock reads s = .ret (s', w)) (f : Bytes) (hf : f ∈ w) :
    f = [] ∨ ∃ q, 2 ≤ q.length ∧ f = frameBytes q ∧
      (IsPacket q f ∨ (q.length = 256 ∧ [0x00, 0x3A] <+: q ∧ ¬ IsPacket q f)) := by
  have hl := lives_of_ret clock reads s s' w h
  clear h
  generalize podS s = p0 at hl
  generalize podS s' = p9 at hl
  induction hl with
  | done => cases hf
  | stops => cases hf
  | error _ _ ih => exact ih hf
  | @frame p f0 rest packets p1 ss p' w hsc hh _ ih =>
    rcases List.mem_append.1 hf with hf | hf
    · obtain ⟨y, hy, rfl⟩ := List.mem_map.1 hf
      unfold Say.frame
      cases hp : y.packet p1.trx with
      | none => exact .inl rfl
      | some q =>
        right
        obtain ⟨a, b, ss', packet, hp', hy'⟩ := hearsAll_mem hh hy
        obtain ⟨h2, h3⟩ := C110_lengths _ _ _ _ _ hp' y hy' _ _ hp
        have h0 : q ≠ [] := by rintro rfl; simp at h2
        have h1 : q.length ≤ 65535 := by omega
        refine ⟨q, h2, rfl, ?_⟩
        by_cases h4 : q.length = 256
        · refine .inr ⟨h4, ?_, fun hi => (C110_frame q h0 h1).1 hi h4⟩
          rcases h3 with h3 | ⟨h5, h6, _⟩
          · omega
          · unfold Say.packet at hp
            cases hb : y.body with
            | none => rw [hb] at hp; cases hp
            | some b =>
              rw [hb] at hp
              simp only [Option.map_some, Option.some.injEq] at hp
              rw [← hp, h5, h6, List.append_assoc]
              exact List.prefix_append _ _
        · exact .inl ((C110_frame q h0 h1).2 h4)
    · exact ih hf

/-- `RequestiPodName`, alone: one frame is written, and it is a packet. -/
example : ∃ s' w, processFrames devGeneral (fun _ => ⟨2024, 1, 2, 3, 4⟩) [.ok ⟨[0x55, 0x02, 0x00, 0x07, 0xF7], []⟩] (Srv.init DevGeneral.zero) =
    .ret (s', w) ∧ w ≠ [] ∧ ∀ f ∈ w, f = [] ∨ ∃ q, 2 ≤ q.length ∧ f = frameBytes q ∧
      (IsPacket q f ∨ (q.length = 256 ∧ [0x00, 0x3A] <+: q ∧ ¬ IsPacket q f)) := by
  obtain ⟨s', h⟩ := nameFrame_answered
  have h' : processFrames devGeneral (fun _ => ⟨2024, 1, 2, 3, 4⟩) [.ok ⟨[0x55, 0x02, 0x00, 0x07, 0xF7], []⟩] (Srv.init DevGeneral.zero) = .ret (s', [[0x55, 0x0E, 0x00,
      0x08, 0x69, 0x70, 0x6F, 0x64, 0x2D, 0x67, 0x61, 0x64, 0x67, 0x65, 0x74, 0x00, 0xA5]]) := by
    rw [processFrames, h]; rfl
  exact ⟨s', _, h', by simp, C110_written _ _ _ _ _ h'⟩

/-- C110. The iPod remembers nothing else: two servers that agree in transaction mode, user interface mode, the number of the
last request and the clock behave alike for ever, whatever certificates and tokens they were sent. -/
theorem C110_memory (clock : Clock) (reads : List (Except Err Slice)) (s t : Srv DevGeneral) (hm : s.mode = t.mode)
    (hu : s.ctx.dev.uimode = t.ctx.dev.uimode) (hc : s.ctx.counter.toUInt16 = t.ctx.counter.toUInt16)
    (hk : s.ctx.ticks = t.ctx.ticks) :
    (processFrames devGeneral clock reads s = .panic ↔ processFrames devGeneral clock reads t = .panic) ∧
    ∀ w, (∃ s', processFrames devGeneral clock reads s = .ret (s', w)) ↔ ∃ t', processFrames devGeneral clock reads t = .ret (t', w) := by
  have hp : (⟨s.mode, s.ctx.dev.uimode, s.ctx.counter.toUInt16, s.ctx.ticks⟩ : Pod) =
      ⟨t.mode, t.ctx.dev.uimode, t.ctx.counter.toUInt16, t.ctx.ticks⟩ := by rw [hm, hu, hc, hk]
  refine ⟨by rw [C110_crash, C110_crash, hp], fun w => ⟨?_, ?_⟩⟩
  · rintro ⟨s', h⟩
    have := (C110_session clock reads s _ w).1 ⟨s', h, rfl⟩
    rw [hp] at this
    obtain ⟨t', h, _⟩ := (C110_session clock reads t _ w).2 this
    exact ⟨t', h⟩
  · rintro ⟨t', h⟩
    have := (C110_session clock reads t _ w).1 ⟨t', h, rfl⟩
    rw [← hp] at this
    obtain ⟨s', h, _⟩ := (C110_session clock reads s _ w).2 this
    exact ⟨s', h⟩

/-- Two servers that have stored different tokens answer the same. -/
example (clock : Clock) (reads : List (Except Err Slice)) (ts us : List FIDTokenValue) (w : List Bytes) :
    (∃ s', processFrames devGeneral clock reads ⟨true, ⟨⟨1, ts⟩, [], 7, [], 0⟩⟩ = .ret (s', w)) ↔
      ∃ t', processFrames devGeneral clock reads ⟨true, ⟨⟨1, us⟩, [], 65536 + 7, [], 0⟩⟩ = .ret (t', w) :=
  (C110_memory clock reads ⟨true, ⟨⟨1, ts⟩, [], 7, [], 0⟩⟩ ⟨true, ⟨⟨1, us⟩, [], 65536 + 7, [], 0⟩⟩ rfl rfl
    (show (7 : UInt32).toUInt16 = (65536 + 7 : UInt32).toUInt16 by decide) rfl).2 w

/-! ### examples -/

def emuClock : Clock := fun _ => ⟨2024, 1, 2, 3, 4⟩

-- an identification: StartIDPS (transaction 1), two tokens (one unknown to the iPod), EndIDPS, the certificate
example : Pod.new.hearsAll emuClock [[0x00, 0x38, 0x00, 0x01], [0x00, 0x3B, 0x00, 0x02, 0x00],
      [0x00, 0x15, 0x00, 0x01, 0x02, 0x00, 0x00, 0x00, 0xAA]] =
    some (⟨true, 0, 2, 0⟩,
      [⟨0x00, 0x02, some 1, some [0x00, 0x38]⟩, ⟨0x00, 0x3C, some 2, some [0x00]⟩, ⟨0x00, 0x14, some 1, some []⟩,
        ⟨0x0A, 0x02, some 2, some []⟩, ⟨0x00, 0x16, some 1, some [0x00]⟩,
        ⟨0x00, 0x17, some 1, some (List.replicate 21 0)⟩]) := by decide +kernel
-- tokens: one to be acknowledged, one the iPod does not know: it is not able to write the answer
example : Pod.new.hears emuClock [0x00, 0x39, 0x01, 0x03, 0x00, 0x01, 0xFF] =
    some (Pod.new, [⟨0x00, 0x3A, none, some [0x01, 0x03, 0x00, 0x01, 0x00]⟩]) := by decide +kernel
example : Pod.new.hears emuClock [0x00, 0x39, 0x01, 0x02, 0x00, 0x0B] = some (Pod.new, [⟨0x00, 0x3A, none, none⟩]) := by decide +kernel
-- the packet it dies of
example : Pod.new.hears emuClock [0x00, 0x39, 0x01, 0x02, 0x00, 0x04] = none := by decide +kernel
-- a command that does not exist
example : Pod.new.hears emuClock [0x00, 0xEE] = some (Pod.new, [⟨0x00, 0x02, none, some [0x05, 0xEE]⟩]) := by decide +kernel
example : Pod.new.hears emuClock [0x03, 0xEE] = some (Pod.new, []) := by decide +kernel
-- the bytes written for a packet
example : frameBytes [0x00, 0x0A, 0x07, 0x01, 0x02] = [0x55, 0x05, 0x00, 0x0A, 0x07, 0x01, 0x02, 0xE7] := by decide +kernel
example : (frameBytes (List.replicate 256 0)).take 3 = [0x55, 0x00, 0x00] := by decide +kernel

-- tokens whose acknowledgement has 256 bytes: 47 of a kind acknowledged with two bytes, four of one acknowledged with one
example : (Pod.hears emuClock ⟨true, 0, 0, 0⟩ (([0x00, 0x39, 0x00, 0x07, 51] : Bytes) ++
      (List.replicate 47 ([0x03, 0x00, 0x02, 0x04] : Bytes) ++ List.replicate 4 [0x02, 0x00, 0x01]).flatten)).map
    (fun x => x.2.map fun y => (y.packet true).map List.length) = some [some 256] := by decide +kernel

-- a session: the software version is asked for, then the transport ends
example : Lives emuClock Pod.new [.error .noProgress, .ok ⟨[0x55, 0x02, 0x00, 0x09, 0xF5], []⟩, .error .eof, .ok ⟨[1], []⟩] Pod.new
    [[0x55, 0x05, 0x00, 0x0A, 0x07, 0x01, 0x02, 0xE7]] :=
  .error (by decide) (.frame (w := [])
    (.packet (j := []) (w := [0x55, 0x02, 0x00, 0x09, 0xF5]) (rest := []) (p := [0x00, 0x09]) (by decide)
      ⟨[2], 0xF5, .inl ⟨2, by decide, rfl, rfl⟩, rfl, by decide⟩ (.done (by decide)))
    (p1 := Pod.new) (ss := [⟨0x00, 0x0A, none, some [7, 1, 2]⟩]) (by decide +kernel) .stops)
-- one it dies in
example : Dies emuClock Pod.new [.ok ⟨[0x55, 0x02, 0x00, 0x64, 0x9A], []⟩] :=
  .packet (b := false) (packets := [[0x00, 0x64]]) (.packet (j := []) (w := [0x55, 0x02, 0x00, 0x64, 0x9A]) (rest := []) (p := [0x00, 0x64]) (by decide)
      ⟨[2], 0x9A, .inl ⟨2, by decide, rfl, rfl⟩, rfl, by decide⟩ (.done (by decide))) (by decide +kernel)
-- two servers that differ in what does not matter
example : let s : Srv DevGeneral := ⟨true, ⟨⟨1, [⟨⟨0, 1⟩, .raw []⟩]⟩, [1, 2, 3], 65537, [], 4⟩⟩
    let t : Srv DevGeneral := ⟨true, ⟨⟨1, []⟩, [], 1, [], 4⟩⟩
    s ≠ t ∧ s.mode = t.mode ∧ s.ctx.dev.uimode = t.ctx.dev.uimode ∧ s.ctx.counter.toUInt16 = t.ctx.counter.toUInt16 ∧
      s.ctx.ticks = t.ctx.ticks :=
  ⟨(fun h => by injection h with _ h; injection h with _ h; cases h), rfl, rfl, by decide, rfl⟩

end Props
