import Verif.Lemmas.FindOut
import Verif.Props.Afresh

/-!
# C112: what an accessory can find out, and what it can bring about
-/

namespace Props
open Go Spec Ipod

theorem frameBytes_short {p : Bytes} (h : p.length ≤ 256) : ((frameBytes p).drop 2).take p.length = p := by
  unfold frameBytes
  simp only
  rw [if_neg (by omega)]
  simp

theorem frameBytes_inj {p q : Bytes} (h : frameBytes p = frameBytes q) (hl : p.length = q.length) (h1 : p.length ≤ 256) : p = q := by
  rw [← frameBytes_short h1, h, hl, frameBytes_short (hl ▸ h1)]

theorem word_inj {x y : UInt16} (h1 : UInt8.ofNat (x.toNat / 256) = UInt8.ofNat (y.toNat / 256))
    (h2 : UInt8.ofNat (x.toNat % 256) = UInt8.ofNat (y.toNat % 256)) : x = y := by
  have h1 := congrArg UInt8.toNat h1
  have h2 := congrArg UInt8.toNat h2
  simp only [UInt8.toNat_ofNat'] at h1 h2
  have := x.toNat_lt
  have := y.toNat_lt
  apply UInt16.toNat_inj.1
  omega

theorem frameBytes_time {y y' : UInt16} {a b c d a' b' c' d' : UInt8}
    (h : frameBytes [0x03, 0x0D, 0x09, UInt8.ofNat (y.toNat / 256), UInt8.ofNat (y.toNat % 256), a, b, c, d] =
      frameBytes [0x03, 0x0D, 0x09, UInt8.ofNat (y'.toNat / 256), UInt8.ofNat (y'.toNat % 256), a', b', c', d']) :
    y = y' ∧ a = a' ∧ b = b' ∧ c = c' ∧ d = d' := by
  have h := frameBytes_inj h (by rfl) (by simp)
  simp only [List.cons.injEq, true_and, and_true] at h
  obtain ⟨h1, h2, h3⟩ := h
  exact ⟨word_inj h1 h2, h3⟩

/-- C112. Two iPods answer everything alike, for ever and in whatever frames, exactly if they agree in the transaction mode, the UI
mode, the number of the last request and the time: each of these an accessory can find out, and nothing else - neither the tokens
nor the certificates of whoever was there before. -/
theorem C112_tell_apart (clock clock' : Clock) (s s' : Srv DevGeneral) :
    (∀ reads, written (processFrames devGeneral clock reads s) = written (processFrames devGeneral clock' reads s')) ↔
      s.mode = s'.mode ∧ s.ctx.dev.uimode = s'.ctx.dev.uimode ∧ s.ctx.counter.toUInt16 = s'.ctx.counter.toUInt16 ∧
        SameTime clock clock' s.ctx.ticks s'.ctx.ticks := by
  constructor
  · intro h
    refine ⟨?_, ?_, ?_, ?_⟩
    · have h1 := written_of_lives (lives_packet (by decide) (by decide) (hears_payload clock (podS s)) .done)
      have h2 := written_of_lives (lives_packet (by decide) (by decide) (hears_payload clock' (podS s')) .done)
      rw [h] at h1
      have := Out.ret.inj (h1.symm.trans h2)
      simp only [List.map_cons, List.map_nil, List.append_nil, List.cons.injEq, and_true] at this
      revert this
      show Say.frame s.mode _ = Say.frame s'.mode _ → _
      cases s.mode <;> cases s'.mode <;> decide +kernel
    · have h1 := written_of_lives (lives_packet (by decide) (by decide) (hears_ui clock (podS s)) .done)
      have h2 := written_of_lives (lives_packet (by decide) (by decide) (hears_ui clock' (podS s')) .done)
      rw [h] at h1
      have := Out.ret.inj (h1.symm.trans h2)
      simp only [List.map_cons, List.map_nil, List.append_nil, List.cons.injEq, and_true] at this
      have e : ∀ p : Pod, Say.frame p.trx ⟨0x00, 0x36, none, some [p.ui]⟩ = frameBytes [0x00, 0x36, p.ui] := by
        intro p; cases p.trx <;> rfl
      rw [e, e] at this
      have := frameBytes_inj this (by rfl) (by simp)
      simp only [List.cons.injEq, true_and, and_true] at this
      exact this
    · have hb : ∀ (clock : Clock) (s : Srv DevGeneral), written (processFrames devGeneral clock
          [.ok ⟨frameBytes [0x00, 0x3B, 0x00] ++ frameBytes [0x00, 0x38], []⟩] s) =
            .ret [frameBytes [0x00, 0x3C, 0x00], frameBytes ([0x00, 0x14] ++ transactionBytes (some (s.ctx.counter.toUInt16 + 1))),
              frameBytes [0x00, 0x02, 0x00, 0x38]] := by
        intro clock s
        refine written_of_lives (p := { podS s with trx := true, asked := 0 })
          (.frame (scan_framed2 (by decide) (by decide) (by decide) (by decide)) (w := []) (p1 := { podS s with trx := true, asked := 0 })
          (ss := [⟨0x00, 0x3C, none, some [0x00]⟩, ⟨0x00, 0x14, some (s.ctx.counter.toUInt16 + 1), some []⟩,
            ⟨0x00, 0x02, none, some [0x00, 0x38]⟩]) ?_ .done)
        simp only [Pod.hearsAll, hears_end, hears_start]
        rfl
      have h1 := hb clock s
      rw [h, hb clock' s'] at h1
      have h1 := Out.ret.inj h1
      simp only [List.cons.injEq, true_and, and_true] at h1
      have h1 := frameBytes_inj h1 (by rfl) (by simp [transactionBytes])
      simp only [transactionBytes, List.cons_append, List.nil_append, List.cons.injEq, true_and, and_true] at h1
      have e := word_inj h1.1 h1.2
      exact (UInt16.add_right_inj 1).1 (by rw [UInt16.add_comm 1, UInt16.add_comm 1]; exact e.symm)
    · intro n
      have h1 := written_of_lives (lives_times clock (n + 1) (podS s))
      have h2 := written_of_lives (lives_times clock' (n + 1) (podS s'))
      rw [h] at h1
      have := congrArg (fun l => l[n]?) (Out.ret.inj (h1.symm.trans h2))
      simp only [List.getElem?_map, List.getElem?_range (Nat.lt_succ_self n), Option.map_some, Option.some.injEq] at this
      obtain ⟨h1, h2, h3, h4, h5⟩ := frameBytes_time this
      show clock ((podS s).looks + n) = clock' ((podS s').looks + n)
      cases hc : clock ((podS s).looks + n)
      cases hc' : clock' ((podS s').looks + n)
      rw [hc, hc'] at h1 h2 h3 h4 h5
      simp only at h1 h2 h3 h4 h5
      rw [h1, h2, h3, h4, h5]
  · rintro ⟨hm, hu, hc, ht⟩ reads
    let t : Srv DevGeneral := { s' with ctx := { s'.ctx with counter := s.ctx.counter } }
    have h1 : SameCourse _ clock clock' _ _ := C91_depends C91_device (s := s) (s' := t) ⟨hm, hu, rfl, ht⟩ reads
    have h2 := C110_memory clock' reads t s' rfl rfl hc rfl
    have h3 : written (processFrames devGeneral clock' reads t) = written (processFrames devGeneral clock' reads s') := by
      cases hr : processFrames devGeneral clock' reads t with
      | panic => rw [(h2.1).1 hr]
      | ret x =>
        obtain ⟨t', e⟩ := (h2.2 x.2).1 ⟨x.1, hr⟩
        rw [e]; rfl
    rw [← h3]
    rcases h1 with ⟨h1, h2⟩ | ⟨a, b, w, h1, h2, _⟩
    · rw [h1, h2]
    · rw [h1, h2]; rfl

/-- C112. What an accessory can bring about, from the start: every transaction mode, every number of the last request, every
number of looks at the clock, and two UI modes. -/
theorem C112_reachable (clock : Clock) (m : Bool) (u : UInt8) (a : UInt16) (n : Nat) :
    (∃ reads s w, processFrames devGeneral clock reads (Srv.init DevGeneral.zero) = .ret (s, w) ∧
      s.mode = m ∧ s.ctx.dev.uimode = u ∧ s.ctx.counter.toUInt16 = a ∧ s.ctx.ticks = n) ↔ u = 0 ∨ u = 1 := by
  constructor
  · rintro ⟨reads, s, w, h, rfl, rfl, rfl, rfl⟩
    exact lives_two (lives_of_ret clock reads _ s w h) (.inl rfl)
  · intro hu
    have h1 := lives_times clock n Pod.new
    obtain ⟨w2, h2⟩ : ∃ w, Lives clock ⟨false, 0, 0, n⟩ (framed (if m then [[0x00, 0x38]] else [])) ⟨m, 0, 0, n⟩ w := by
      cases m
      · exact ⟨_, .done⟩
      · have := lives_packet (by decide) (by decide) (hears_start clock ⟨false, 0, 0, n⟩) .done
        exact ⟨_, by simpa using this⟩
    obtain ⟨w3, h3⟩ := lives_ends clock a.toNat ⟨m, 0, 0, n⟩
    obtain ⟨w4, h4⟩ : ∃ w, Lives clock ⟨m, 0, a, n⟩ (framed (if u = 1 then [[0x00, 0x05]] else [])) ⟨m, u, a, n⟩ w := by
      rcases hu with rfl | rfl
      · exact ⟨_, .done⟩
      · obtain ⟨ss, h⟩ := hears_enter clock ⟨m, 0, a, n⟩
        have := lives_packet (by decide) (by decide) h .done
        exact ⟨_, by simpa using this⟩
    have e1 : ({ Pod.new with looks := Pod.new.looks + n } : Pod) = ⟨false, 0, 0, n⟩ := by simp [Pod.new]
    have e3 : ({ (⟨m, 0, 0, n⟩ : Pod) with asked := (⟨m, 0, 0, n⟩ : Pod).asked + UInt16.ofNat a.toNat } : Pod) = ⟨m, 0, a, n⟩ := by simp
    rw [e1] at h1
    rw [e3] at h3
    have h := lives_append h1 (framed_no_eof _) (lives_append h2 (framed_no_eof _) (lives_append h3 (framed_no_eof _) h4))
    obtain ⟨s, hs, e⟩ := (C110_session clock _ (Srv.init DevGeneral.zero) _ _).2 h
    exact ⟨_, s, _, hs, (congrArg Pod.trx e).symm, (congrArg Pod.ui e).symm, (congrArg Pod.asked e).symm, (congrArg Pod.looks e).symm⟩

/-- C112. Whatever went on before: after three packets - start the identification, leave the extended interface, request to
identify - the iPod answers everything as one just switched on (at that time). -/
theorem C112_as_new (clock : Clock) (before : List (Except Err Slice)) (s : Srv DevGeneral) (w : List Bytes)
    (h : processFrames devGeneral clock before (Srv.init DevGeneral.zero) = .ret (s, w)) :
    ∃ s1 w1, processFrames devGeneral clock (framed freshStart) s = .ret (s1, w1) ∧ s1.ctx.ticks = s.ctx.ticks ∧
      ∀ reads, written (processFrames devGeneral clock reads s1) =
        written (processFrames devGeneral (fun n => clock (s.ctx.ticks + n)) reads (Srv.init DevGeneral.zero)) := by
  have hu : (podS s).ui = 0 ∨ (podS s).ui = 1 := lives_two (lives_of_ret clock before _ s w h) (.inl rfl)
  obtain ⟨ss, h2⟩ := hears_leave clock { podS s with trx := true, asked := 0 } hu
  have h3 := lives_packet (by decide) (by decide) (hears_start clock (podS s)) (lives_packet (by decide) (by decide) h2
    (lives_packet (by decide) (by decide) (hears_request clock _) .done))
  obtain ⟨s1, hs, e⟩ := (C110_session clock _ s _ _).2 h3
  have ht : s1.ctx.ticks = s.ctx.ticks := (congrArg Pod.looks e).symm
  refine ⟨s1, _, by simpa [framed, freshStart] using hs, ht, ?_⟩
  refine (C112_tell_apart clock _ s1 (Srv.init DevGeneral.zero)).2 ⟨(congrArg Pod.trx e).symm, (congrArg Pod.ui e).symm,
    (congrArg Pod.asked e).symm, fun n => ?_⟩
  rw [ht]
  show _ = clock (s.ctx.ticks + (0 + n))
  rw [Nat.zero_add]

/-- After `RequestiPodName`. -/
example : ∃ s w, processFrames devGeneral (fun _ => ⟨2024, 1, 2, 3, 4⟩) [.ok ⟨[0x55, 0x02, 0x00, 0x07, 0xF7], []⟩] (Srv.init DevGeneral.zero) =
    .ret (s, w) ∧ w ≠ [] ∧
    ∃ s1 w1, processFrames devGeneral (fun _ => ⟨2024, 1, 2, 3, 4⟩) (framed freshStart) s = .ret (s1, w1) ∧
      ∀ reads, written (processFrames devGeneral (fun _ => ⟨2024, 1, 2, 3, 4⟩) reads s1) =
        written (processFrames devGeneral (fun _ => ⟨2024, 1, 2, 3, 4⟩) reads (Srv.init DevGeneral.zero)) := by
  obtain ⟨s', h⟩ := nameFrame_answered
  have h' : processFrames devGeneral (fun _ => ⟨2024, 1, 2, 3, 4⟩) [.ok ⟨[0x55, 0x02, 0x00, 0x07, 0xF7], []⟩] (Srv.init DevGeneral.zero) = .ret (s', [[0x55, 0x0E, 0x00,
      0x08, 0x69, 0x70, 0x6F, 0x64, 0x2D, 0x67, 0x61, 0x64, 0x67, 0x65, 0x74, 0x00, 0xA5]]) := by
    rw [processFrames, h]; rfl
  obtain ⟨s1, w1, h1, _, h2⟩ := C112_as_new _ _ _ _ h'
  exact ⟨s', _, h', by simp, s1, w1, h1, h2⟩

/-! ### examples -/

-- an iPod asked twice for the time, in the extended interface with transactions on, and after 65537 requests
example : ∃ reads s w, processFrames devGeneral emuClock reads (Srv.init DevGeneral.zero) = .ret (s, w) ∧
    s.mode = true ∧ s.ctx.dev.uimode = 1 ∧ s.ctx.counter.toUInt16 = 1 ∧ s.ctx.ticks = 2 := (C112_reachable _ _ _ _ _).2 (.inr rfl)
-- no session leads to another UI mode
example : ¬ ∃ reads s w, processFrames devGeneral emuClock reads (Srv.init DevGeneral.zero) = .ret (s, w) ∧
    s.mode = true ∧ s.ctx.dev.uimode = 2 ∧ s.ctx.counter.toUInt16 = 1 ∧ s.ctx.ticks = 2 := by
  rw [C112_reachable]; decide
-- an iPod that knows a certificate and one that does not cannot be told apart
example (reads : List (Except Err Slice)) :
    written (processFrames devGeneral emuClock reads ⟨true, ⟨⟨1, [⟨⟨0, 1⟩, .raw []⟩]⟩, [1, 2, 3], 65537, [], 4⟩⟩) =
      written (processFrames devGeneral emuClock reads ⟨true, ⟨⟨1, []⟩, [], 1, [], 4⟩⟩) :=
  (C112_tell_apart emuClock emuClock ⟨true, ⟨⟨1, [⟨⟨0, 1⟩, .raw []⟩]⟩, [1, 2, 3], 65537, [], 4⟩⟩ ⟨true, ⟨⟨1, []⟩, [], 1, [], 4⟩⟩).2
    ⟨rfl, rfl, by decide, fun _ => rfl⟩ reads
-- two iPods that can be told apart: by the number of the last request only
example : ∃ reads, written (processFrames devGeneral emuClock reads (Srv.init DevGeneral.zero)) ≠
    written (processFrames devGeneral emuClock reads { Srv.init DevGeneral.zero with ctx := { (Srv.init DevGeneral.zero).ctx with counter := 7 } }) := by
  refine Classical.byContradiction fun h => ?_
  have := (C112_tell_apart _ _ _ _).1 fun reads => Classical.byContradiction fun hr => h ⟨reads, hr⟩
  exact absurd this.2.2.1 (by decide)
-- a session before the fresh start: the extended interface was entered
example : ∃ s w, processFrames devGeneral emuClock (framed [[0x00, 0x05]]) (Srv.init DevGeneral.zero) = .ret (s, w) ∧
    s.ctx.dev.uimode = 1 := by
  obtain ⟨ss, h⟩ := hears_enter emuClock Pod.new
  obtain ⟨s, hs, e⟩ := (C110_session emuClock _ (Srv.init DevGeneral.zero) _ _).2 (lives_packet (by decide) (by decide) h .done)
  exact ⟨s, _, by simpa [framed] using hs, (congrArg Pod.ui e).symm⟩

end Props
