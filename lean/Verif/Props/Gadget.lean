import Verif.Lemmas.Gadget
import Verif.Props.Online
import Verif.Props.Replay

/-!
# C111: `ipod serve` as a function of what is read from the device file
-/

namespace Props
open Go Spec Ipod Ipod.Hid Ipod.Trace

/-- The specified gadget in the state of a server that waits for the first report of a frame. -/
def idle (s : Srv DevGeneral) : Gadget := ⟨⟨s.mode, s.ctx.dev.uimode, s.ctx.counter.toUInt16, s.ctx.ticks⟩, []⟩

/-- C111. All that happens at the device file - every read and every report written, in order, byte for byte, also if writes fail - is what
the specified gadget does; or the process crashed at a read that completes a frame in which a packet announces more bytes than the
frame has, and until then it was. -/
theorem C111_session (legacy : Bool) (clock : Clock) (grow : Growth) (fails : Fails) (reads : List ReadRes) (s : Srv DevGeneral) :
    session devGeneral clock grow (Cli.table legacy) fails reads (Live.start s) [] =
        ((idle s).deeds legacy clock fails 0 reads).map deedOp ∨
      ∃ pre r post, reads = pre ++ r :: post ∧ Tempted legacy clock (idle s) pre r ∧
        session devGeneral clock grow (Cli.table legacy) fails reads (Live.start s) [] =
          ((idle s).deeds legacy clock fails 0 pre).map deedOp ++ [.read r] :=
  session_deeds legacy clock grow fails reads (Live.start s) []

/-- C111. Without such a frame it is exactly that, whatever the memory management does. -/
theorem C111_exact (legacy : Bool) (clock : Clock) (grow : Growth) (fails : Fails) (reads : List ReadRes) (s : Srv DevGeneral)
    (h : ∀ pre r post, reads = pre ++ r :: post → ¬ Tempted legacy clock (idle s) pre r) :
    session devGeneral clock grow (Cli.table legacy) fails reads (Live.start s) [] =
      ((idle s).deeds legacy clock fails 0 reads).map deedOp := by
  rcases C111_session legacy clock grow fails reads s with h' | ⟨pre, r, post, e, ht, _⟩
  · exact h'
  · exact absurd ht (h pre r post e)

/-- C111. The trace file of `serve -w`: one line for every read that gave bytes and for every report the device took. -/
theorem C111_trace (legacy : Bool) (clock : Clock) (grow : Growth) (fails : Fails) (reads : List ReadRes) (s : Srv DevGeneral)
    (h : ∀ pre r post, reads = pre ++ r :: post → ¬ Tempted legacy clock (idle s) pre r) :
    sessionTrace devGeneral clock grow (Cli.table legacy) fails reads s =
      ((idle s).deeds legacy clock fails 0 reads).flatMap fun d => match d with
        | .got r => if r.err = none ∧ r.data ≠ [] then lineOf 0x3C r.data ++ [0x0A] else []
        | .put b none => lineOf 0x3E b ++ [0x0A]
        | .put _ (some _) => [] := by
  unfold sessionTrace
  rw [C111_exact legacy clock grow fails reads s h, C41_tracer]
  have hput : ∀ i g rs, ∀ b e, Deed.put b e ∈ Gadget.deeds legacy clock fails i g rs → b ≠ [] := by
    have hp : ∀ bs : List Bytes, (∀ x ∈ bs, 2 ≤ x.length) → ∀ i b e, Deed.put b e ∈ puts fails i bs → b ≠ [] := by
      intro bs
      induction bs with
      | nil => intro _ i b e h; cases h
      | cons x bs ih =>
        intro hx i b e h
        have hb : x ≠ [] := by
          rintro rfl
          simpa using hx [] (List.mem_cons_self ..)
        simp only [puts] at h
        split at h
        · rcases List.mem_cons.1 h with h | h
          · cases h; exact hb
          · exact ih (fun y hy => hx y (List.mem_cons_of_mem _ hy)) _ b e h
        · rw [List.mem_singleton] at h
          cases h; exact hb
    have hpa : ∀ fs i b e, Deed.put b e ∈ putsAll legacy fails i fs → b ≠ [] := by
      intro fs
      induction fs with
      | nil => intro i b e h; cases h
      | cons f fs ih =>
        intro i b e h
        rcases List.mem_append.1 h with h | h
        · exact hp _ (reportsOf_long _ _ _) _ b e h
        · exact ih _ b e h
    intro i g rs
    induction rs generalizing i g with
    | nil => intro b e h; cases h
    | cons r rs ih =>
      intro b e h
      simp only [Gadget.deeds] at h
      rcases List.mem_cons.1 h with h | h
      · cases h
      · split at h
        · cases h
        · cases h
        · rcases List.mem_append.1 h with h | h
          · exact hpa _ _ b e h
          · exact ih _ _ b e h
  have hp := hput 0 (idle s) reads
  simp only [List.nil_append]
  generalize Gadget.deeds legacy clock fails 0 (idle s) reads = ds at hp
  induction ds with
  | nil => rfl
  | cons d ds ih =>
    have ih := ih (fun b e hb => hp b e (List.mem_cons_of_mem _ hb))
    rw [List.map_cons, List.flatMap_cons]
    match d with
    | .got ⟨b, some e⟩ =>
      rw [List.filterMap_cons_none (show moved (deedOp (.got ⟨b, some e⟩)) = none from rfl), ih]
      simp
    | .got ⟨b, none⟩ =>
      rw [List.filterMap_cons_some (show moved (deedOp (.got ⟨b, none⟩)) = some (0, b) from rfl)]
      by_cases hb : b = []
      · subst hb
        rw [List.filter_cons_of_neg (by simp), ih]
        simp
      · rw [List.filter_cons_of_pos (by simpa using hb), List.flatMap_cons, ih]
        simp [hb]
    | .put b none =>
      have hb : b ≠ [] := hp b none (List.mem_cons_self ..)
      rw [List.filterMap_cons_some (show moved (deedOp (.put b none)) = some (1, b) from by
        simp [deedOp, moved])]
      rw [List.filter_cons_of_pos (by simpa using hb), List.flatMap_cons, ih]
      rfl
    | .put b (some e) =>
      rw [List.filterMap_cons_none (show moved (deedOp (.put b (some e))) = none from rfl), ih]
      rfl

theorem run_gadget (legacy : Bool) (clock : Clock) (grow : Growth) (reads : List ReadRes) : ∀ (l : Live DevGeneral),
    match Live.run devGeneral clock grow (Cli.table legacy) reads l with
    | .ret (l', true) => (gadgetOf l).after legacy clock reads = some (gadgetOf l')
    | .ret (l', false) => ∃ pre r post, reads = pre ++ r :: post ∧ (gadgetOf l).after legacy clock pre = some (gadgetOf l') ∧
        r.err = some .eof
    | .panic => ∃ pre r post g, reads = pre ++ r :: post ∧ (gadgetOf l).after legacy clock pre = some g ∧
        (g.reads legacy clock r = .dies ∨ Tempted legacy clock (gadgetOf l) pre r) := by
  induction reads with
  | nil => intro l; rfl
  | cons r reads ih =>
    intro l
    rw [Live.run]
    rcases read_turn legacy clock grow l r with ⟨h1, frame, h2, h3⟩ | h
    · simp only [h1]
      exact ⟨[], r, reads, _, rfl, rfl, .inr ⟨_, frame, rfl, h2, h3⟩⟩
    · cases hr : (gadgetOf l).reads legacy clock r with
      | ends =>
        rw [hr] at h
        simp only [h]
        refine ⟨[], r, reads, rfl, rfl, ?_⟩
        unfold Gadget.reads at hr
        cases hs : seen legacy r with
        | eof =>
          unfold seen at hs
          split at hs
          · assumption
          · cases hs
          · split at hs
            · split at hs <;> cases hs
            · cases hs
        | nothing => simp only [hs] at hr; cases hr
        | report a b =>
          simp only [hs] at hr
          split at hr
          · split at hr <;> cases hr
          · split at hr
            · cases hr
            · split at hr <;> cases hr
      | dies =>
        rw [hr] at h
        simp only [h]
        exact ⟨[], r, reads, _, rfl, rfl, .inl hr⟩
      | goes g' frames =>
        rw [hr] at h
        obtain ⟨l', h1, h2, h3⟩ := h
        have ih := ih l'
        simp only [h1, Out.bind_ret]
        rw [h2] at ih
        split at ih
        · simp only [Gadget.after, hr]
          exact ih
        · obtain ⟨pre, r', post, rfl, ha, he⟩ := ih
          exact ⟨r :: pre, r', post, rfl, by simp only [Gadget.after, hr]; exact ha, he⟩
        · obtain ⟨pre, r', post, g, rfl, ha, he⟩ := ih
          refine ⟨r :: pre, r', post, g, rfl, by simp only [Gadget.after, hr]; exact ha, ?_⟩
          rcases he with he | ⟨g'', frame, a1, a2, a3⟩
          · exact .inl he
          · exact .inr ⟨g'', frame, by simp only [Gadget.after, hr]; exact a1, a2, a3⟩

/-- C111. The state: a server that still waits is the gadget after the reads; one that has ended is the gadget before an end of file; one
that crashed was handed a packet the iPod dies of, or a frame that announces more than it has. -/
theorem C111_state (legacy : Bool) (clock : Clock) (grow : Growth) (reads : List ReadRes) (s : Srv DevGeneral) :
    match observed devGeneral clock grow (Cli.table legacy) reads s with
    | .ret (l, true) => (idle s).after legacy clock reads =
        some ⟨⟨l.srv.mode, l.srv.ctx.dev.uimode, l.srv.ctx.counter.toUInt16, l.srv.ctx.ticks⟩, l.buf.data⟩
    | .ret (l, false) => ∃ pre r post, reads = pre ++ r :: post ∧ r.err = some .eof ∧ (idle s).after legacy clock pre =
        some ⟨⟨l.srv.mode, l.srv.ctx.dev.uimode, l.srv.ctx.counter.toUInt16, l.srv.ctx.ticks⟩, l.buf.data⟩
    | .panic => ∃ pre r post g, reads = pre ++ r :: post ∧ (idle s).after legacy clock pre = some g ∧
        (g.reads legacy clock r = .dies ∨ Tempted legacy clock (idle s) pre r) := by
  have h := run_gadget legacy clock grow reads (Live.start s)
  unfold observed
  split at h
  · exact h
  · obtain ⟨pre, r, post, e, ha, he⟩ := h
    exact ⟨pre, r, post, e, he, ha⟩
  · exact h

theorem after_append (legacy : Bool) (clock : Clock) (a b : List ReadRes) : ∀ g : Gadget,
    g.after legacy clock (a ++ b) = (g.after legacy clock a).bind fun g' => g'.after legacy clock b := by
  induction a with
  | nil => intro g; rfl
  | cons r a ih =>
    intro g
    simp only [List.cons_append, Gadget.after]
    cases g.reads legacy clock r <;> simp only [ih, Option.bind_none]

/-- C111. If the iPod dies of a packet the process crashes. -/
theorem C111_dies (legacy : Bool) (clock : Clock) (grow : Growth) (pre post : List ReadRes) (r : ReadRes) (s : Srv DevGeneral) (g : Gadget)
    (ha : (idle s).after legacy clock pre = some g) (hd : g.reads legacy clock r = .dies) :
    observed devGeneral clock grow (Cli.table legacy) (pre ++ r :: post) s = .panic := by
  have hnone : ∀ x, (idle s).after legacy clock (pre ++ r :: x) = none := fun x => by
    rw [after_append, ha]
    simp only [Option.bind_some, Gadget.after, hd]
  have h := C111_state legacy clock grow (pre ++ r :: post) s
  split at h
  · rw [hnone] at h; cases h
  · obtain ⟨pre', r', post', e, he, ha'⟩ := h
    exfalso
    have hr' : ∀ g : Gadget, g.reads legacy clock r' = .ends := fun g => by
      have : seen legacy r' = .eof := by unfold seen; rw [he]
      unfold Gadget.reads
      simp only [this]
    rcases List.append_eq_append_iff.1 e with ⟨c, rfl, hc⟩ | ⟨c, rfl, hc⟩
    · cases c with
      | nil =>
        simp only [List.nil_append, List.cons.injEq] at hc
        rw [hc.1, hr'] at hd; cases hd
      | cons x c =>
        simp only [List.cons_append, List.cons.injEq] at hc
        rw [hc.1.symm] at ha'
        rw [hnone] at ha'; cases ha'
    · cases c with
      | nil =>
        simp only [List.nil_append, List.cons.injEq] at hc
        rw [← hc.1, hr'] at hd; cases hd
      | cons x c =>
        simp only [List.cons_append, List.cons.injEq] at hc
        rw [after_append, ha'] at ha
        simp only [Option.bind_some, Gadget.after, ← hc.1, hr'] at ha
        cases ha
  · assumption

/-! ### examples -/

def gadgetClock : Clock := fun _ => ⟨2024, 1, 2, 3, 4⟩

/-- A report with a request for the name, cut in two, with an unknown report and an error in between for another one. -/
def gadgetReads : List ReadRes :=
  [⟨[0x05, 0x02, 0x55, 0x02], none⟩, ⟨[0x05, 0x01, 0x00, 0x07, 0xF7], none⟩,
   ⟨[0x05, 0x02, 0x55, 0x02], none⟩, ⟨[0x99, 0x01, 0x00], none⟩, ⟨[0x05, 0x01, 0x00, 0x07, 0xF7], none⟩,
   ⟨[], some .noProgress⟩, ⟨[0x05, 0x00, 0x55, 0x02, 0x00, 0x09, 0xF5, 0xAA, 0xAA, 0x55], none⟩, ⟨[], some .eof⟩]

-- the name is answered in one report (id 3), the version in another (id 1), which the device refuses
example : ((⟨Pod.new, []⟩ : Gadget).deeds false gadgetClock (fun i => if i = 1 then some .noProgress else none) 0 gadgetReads).filterMap
    (fun d => match d with | .put b e => some (b, e) | _ => none) =
    [([0x03, 0x00, 0x55, 0x0E, 0x00, 0x08, 0x69, 0x70, 0x6F, 0x64, 0x2D, 0x67, 0x61, 0x64, 0x67, 0x65, 0x74, 0x00, 0xA5, 0x00, 0x00], none),
     ([0x01, 0x00, 0x55, 0x05, 0x00, 0x0A, 0x07, 0x01, 0x02, 0xE7, 0x00, 0x00, 0x00], some .noProgress)] := by decide +kernel
-- no frame announces more than it has
example : ∀ pre r post, gadgetReads = pre ++ r :: post → ¬ Tempted false gadgetClock ⟨Pod.new, []⟩ pre r := by
  have h : ∀ i < gadgetReads.length, (((⟨Pod.new, []⟩ : Gadget).after false gadgetClock (gadgetReads.take i)).bind fun g =>
      gadgetReads[i]?.bind fun r => completes false g r).any exceeds = false := by decide +kernel
  rintro pre r post e ⟨g, frame, h1, h2, h3⟩
  have := h pre.length (by rw [e]; simp)
  rw [e] at this
  simp only [List.take_left, List.getElem?_append_right (Nat.le_refl _), Nat.sub_self, List.getElem?_cons_zero, h1, Option.bind_some, h2,
    Option.any_some, h3] at this
  cases this
-- a packet the iPod dies of
example : (⟨Pod.new, []⟩ : Gadget).reads false gadgetClock ⟨[0x05, 0x00, 0x55, 0x02, 0x00, 0x64, 0x9A], none⟩ = .dies := by decide +kernel
-- 70 bytes, in reports of 62 and of 11 bytes, the last one filled up
example : (reportsOf false true (List.replicate 70 0xAB)).map (fun r => (r.take 3, r.length)) =
    [([0x09, 0x02, 0xAB], 64), ([0x01, 0x01, 0xAB], 13)] := by decide +kernel
-- a frame with a packet, something spoilt and another packet
example : packetsIn [0x11, 0x55, 0x02, 0x00, 0x07, 0xF7, 0x55, 0x02, 0x00, 0x07, 0x00, 0x55, 0x02, 0x00, 0x09, 0xF5, 0x00] =
    [[0x00, 0x07], [0x00, 0x09]] := by decide +kernel
example : exceeds [0x55, 0x02, 0x00, 0x07, 0xF7, 0x00] = false ∧ exceeds [0x55, 0x06, 0x00, 0x07, 0xF7, 0x00] = true := by decide +kernel

end Props
