import Verif.Lemmas.Together
import Verif.Lemmas.Afresh
import Verif.Props.Afresh

/-! # Property C109: several accessories served by one process -/

namespace Props
open Go Spec Ipod Ipod.Together

/-! ## C109 -/

/-- `n` steps of a loop on its own. -/
def goOn {σ : Type} (D : Device σ) (clock : Clock) : Nat → Shared → Side σ → Out (Shared × Side σ)
  | 0, g, s => .ret (g, s)
  | n + 1, g, s => goOn D clock n g s >>= fun x => Side.step D clock x.1 x.2 >>= fun y => .ret (y.1, y.2.1)

/-- What is left to do for a loop on its own. -/
def finish {σ : Type} (D : Device σ) (clock : Clock) (g : Shared) (s : Side σ) : Out (Srv σ × List Bytes) :=
  match s.todo with
  | none =>
    processFrames D clock s.reads ⟨s.mode, { s.ctx g with out := [] }⟩ >>= fun y => .ret (y.1, s.written ++ y.2)
  | some cmds =>
    handleAll D clock cmds (s.ctx g) >>= fun c =>
    processFrames D clock s.reads ⟨(sendAll s.mode c.out).1, { c with out := [] }⟩ >>= fun z =>
    .ret (z.1, s.written ++ (sendAll s.mode c.out).2 ++ z.2)

theorem finish_step {σ : Type} (D : Device σ) (clock : Clock) (g : Shared) (s : Side σ) :
    (Side.step D clock g s >>= fun x => finish D clock x.1 x.2.1) = finish D clock g s := by
  obtain ⟨mode, dev, ticks, reads, todo, out, written⟩ := s
  cases todo with
  | none =>
    cases reads with
    | nil => rfl
    | cons r reads =>
      cases r with
      | error e =>
        by_cases he : e = .eof
        · subst he; rfl
        · simp only [Side.step, if_neg he, finish, Side.ctx, Out.bind_ret]
          rw [show processFrames D clock (.error e :: reads) = processFrames D clock reads by
            funext s; cases e <;> first | rfl | exact absurd rfl he]
      | ok frame =>
        simp only [Side.step, finish, Side.ctx, processFrames, processFrame]
        cases readCommands mode frame with
        | panic => rfl
        | ret x =>
          simp only [Out.bind_ret]
          cases handleAll D clock x.2 ⟨dev, g.certBuf, g.counter, [], ticks⟩ with
          | panic => rfl
          | ret c =>
            simp only [Out.bind_ret]
            cases processFrames D clock reads ⟨(sendAll x.1 c.out).1, { c with out := [] }⟩ with
            | panic => rfl
            | ret z => simp [List.append_assoc]
  | some cmds =>
    cases cmds with
    | nil =>
      simp only [Side.step, finish, Side.ctx, handleAll, Out.bind_ret]
    | cons cmd cmds =>
      simp only [Side.step, finish, handleAll]
      cases handlePacket D clock cmd (Side.ctx ⟨mode, dev, ticks, reads, some (cmd :: cmds), out, written⟩ g) with
      | panic => rfl
      | ret c => rfl

theorem finish_goOn {σ : Type} (D : Device σ) (clock : Clock) (n : Nat) (g : Shared) (s : Side σ) :
    (goOn D clock n g s >>= fun x => finish D clock x.1 x.2) = finish D clock g s := by
  induction n with
  | zero => rfl
  | succ n ih =>
    rw [← ih]
    simp only [goOn]
    cases goOn D clock n g s with
    | panic => rfl
    | ret x =>
      simp only [Out.bind_ret]
      rw [← finish_step D clock x.1 x.2]
      cases Side.step D clock x.1 x.2 <;> rfl

/-- Two states of a loop an accessory can tell apart by the numbers of requests only. -/
structure SideLike {σ : Type} (R : σ → σ → Prop) (clock : Clock) (s a : Side σ) : Prop where
  mode : s.mode = a.mode
  dev : R s.dev a.dev
  ticks : SameTime clock clock s.ticks a.ticks
  reads : s.reads = a.reads
  todo : s.todo = a.todo
  out : OutLike s.out a.out
  written : FramesAlike s.written a.written

theorem step_like {σ : Type} {D : Device σ} {R : σ → σ → Prop} (hU : Unseen D R) (clock : Clock) (g h : Shared) {s a : Side σ}
    (hl : SideLike R clock s a) :
    Side.step D clock g s = .panic ∧ Side.step D clock h a = .panic ∨
    ∃ x y, Side.step D clock g s = .ret x ∧ Side.step D clock h a = .ret y ∧ SideLike R clock x.2.1 y.2.1 := by
  obtain ⟨mode, dev, ticks, reads, todo, out, written⟩ := s
  obtain ⟨mode', dev', ticks', reads', todo', out', written'⟩ := a
  obtain ⟨h1, h2, h3, h4, h5, h6, h7⟩ := hl
  simp only at h1 h2 h3 h4 h5 h6 h7
  subst h1 h4 h5
  cases todo with
  | none =>
    cases reads with
    | nil => exact .inr ⟨_, _, rfl, rfl, ⟨rfl, h2, h3, rfl, rfl, h6, h7⟩⟩
    | cons r reads =>
      cases r with
      | error e =>
        by_cases he : e = .eof
        · simp only [Side.step, if_pos he]
          exact .inr ⟨_, _, rfl, rfl, ⟨rfl, h2, h3, rfl, rfl, h6, h7⟩⟩
        · simp only [Side.step, if_neg he]
          exact .inr ⟨_, _, rfl, rfl, ⟨rfl, h2, h3, rfl, rfl, h6, h7⟩⟩
      | ok frame =>
        simp only [Side.step]
        cases readCommands mode frame with
        | panic => exact .inl ⟨rfl, rfl⟩
        | ret x => exact .inr ⟨_, _, rfl, rfl, ⟨rfl, h2, h3, rfl, rfl, .nil, h7⟩⟩
  | some cmds =>
    cases cmds with
    | nil =>
      have e := sendAll_like h6 mode
      exact .inr ⟨_, _, rfl, rfl, ⟨e.1, h2, h3, rfl, rfl, .nil, framesAlike_append h7 e.2⟩⟩
    | cons cmd cmds =>
      obtain ⟨c, c', e1, e2, hc⟩ := handlePacket_like hU (clock := clock) (clock' := clock) cmd
        (c := Side.ctx ⟨mode, dev, ticks, reads, some (cmd :: cmds), out, written⟩ g)
        (c' := Side.ctx ⟨mode, dev', ticks', reads, some (cmd :: cmds), out', written'⟩ h) ⟨h2, h6, h3⟩
      simp only [Side.step, e1, e2]
      exact .inr ⟨_, _, rfl, rfl, ⟨rfl, hc.dev, hc.time, rfl, rfl, hc.out, h7⟩⟩

/-- Whatever the others do, every loop goes as on its own, up to the numbers of requests. -/
theorem run_like {σ : Type} {D : Device σ} {R : σ → σ → Prop} (hU : Unseen D R) (clock : Nat → Clock) (i : Nat) (g0 : Shared)
    (s0 : Side σ) (schedule : List Nat) (t : System σ) {n : Nat} {g : Shared} {a : Side σ} (h0 : goOn D (clock i) n g0 s0 = .ret (g, a))
    (hl : SideLike R (clock i) (t.sides i) a) {t' : System σ} (h : t.run D clock schedule = .ret t') :
    ∃ n g a, goOn D (clock i) n g0 s0 = .ret (g, a) ∧ SideLike R (clock i) (t'.sides i) a := by
  induction schedule generalizing t n g a with
  | nil => cases h; exact ⟨n, g, a, h0, hl⟩
  | cons j js ih =>
    simp only [System.run, System.step] at h
    cases hx : Side.step D (clock j) t.shared (t.sides j) with
    | panic => rw [hx] at h; cases h
    | ret x =>
      rw [hx] at h
      by_cases hj : i = j
      · subst hj
        rcases step_like hU (clock i) t.shared g hl with ⟨e, -⟩ | ⟨x', y, e1, e2, hxy⟩
        · rw [hx] at e; cases e
        · rw [hx] at e1; cases e1
          refine ih _ (n := n + 1) (g := y.1) (a := y.2.1) ?_ ?_ h
          · simp only [goOn, h0, Out.bind_ret, e2]
          · simpa using hxy
      · refine ih _ h0 ?_ h
        simpa [hj] using hl

theorem run_panic {σ : Type} {D : Device σ} {R : σ → σ → Prop} (hU : Unseen D R) (clock : Nat → Clock) (g0 : Nat → Shared)
    (s0 : Nat → Side σ) (schedule : List Nat) (t : System σ)
    (h0 : ∀ i, ∃ n g a, goOn D (clock i) n (g0 i) (s0 i) = .ret (g, a) ∧ SideLike R (clock i) (t.sides i) a)
    (h : t.run D clock schedule = .panic) : ∃ i, finish D (clock i) (g0 i) (s0 i) = .panic := by
  induction schedule generalizing t with
  | nil => cases h
  | cons j js ih =>
    simp only [System.run, System.step] at h
    obtain ⟨n, g, a, h1, h2⟩ := h0 j
    rcases step_like hU (clock j) t.shared g h2 with ⟨-, e⟩ | ⟨x, y, e1, e2, hxy⟩
    · refine ⟨j, ?_⟩
      rw [← finish_goOn D (clock j) n, h1, Out.bind_ret, ← finish_step D (clock j) g a, e]
      rfl
    · rw [e1] at h
      refine ih _ (fun i => ?_) h
      by_cases hi : i = j
      · subst hi
        exact ⟨n + 1, y.1, y.2.1, by simp only [goOn, h1, Out.bind_ret, e2], by simpa using hxy⟩
      · obtain ⟨n, g, a, h1, h2⟩ := h0 i
        exact ⟨n, g, a, h1, by simpa [hi] using h2⟩

theorem finish_start {σ : Type} (D : Device σ) (clock : Clock) (dev : σ) (reads : List (Except Err Slice)) :
    finish D clock ⟨[], 0⟩ (Side.start dev reads) = processFrames D clock reads (Srv.init dev) := by
  simp only [finish, Side.start, Side.ctx, Srv.init]
  cases processFrames D clock reads ⟨false, ⟨dev, [], 0, [], 0⟩⟩ <;> rfl

theorem framesAlike_refl (l : List Bytes) : FramesAlike l l := by
  induction l with
  | nil => exact .nil
  | cons f fs ih => exact .cons (.inl rfl) ih

theorem start_like {σ : Type} {R : σ → σ → Prop} (hR : ∀ d, R d d) (clock : Nat → Clock) (dev : Nat → σ)
    (reads : Nat → List (Except Err Slice)) (i : Nat) :
    SideLike R (clock i) ((System.start dev reads).sides i) (Side.start (dev i) (reads i)) :=
  ⟨rfl, hR _, fun _ => rfl, rfl, rfl, .nil, .nil⟩

/-- C109. However many accessories are served at the same time and in whatever order the loops proceed, each accessory is
written the frames it would be written on its own, up to the numbers of the requests the iPod makes, and its transaction mode
and what its device answers are the same afterwards. -/
theorem C109_answers {σ : Type} {D : Device σ} {R : σ → σ → Prop} (hU : Unseen D R) (hR : ∀ d, R d d) (clock : Nat → Clock)
    (dev : Nat → σ) (reads : Nat → List (Except Err Slice)) (schedule : List Nat) {t : System σ}
    (h : (System.start dev reads).run D clock schedule = .ret t) (i : Nat) (hf : Finished (t.sides i)) :
    ∃ s w, processFrames D (clock i) (reads i) (Srv.init (dev i)) = .ret (s, w) ∧ FramesAlike (t.sides i).written w ∧
      (t.sides i).mode = s.mode ∧ R (t.sides i).dev s.ctx.dev := by
  obtain ⟨n, g, a, h1, h2⟩ := run_like hU clock i ⟨[], 0⟩ (Side.start (dev i) (reads i)) schedule (System.start dev reads)
    (n := 0) rfl (start_like hR clock dev reads i) h
  have e := finish_goOn D (clock i) n ⟨[], 0⟩ (Side.start (dev i) (reads i))
  rw [h1, Out.bind_ret, finish_start] at e
  obtain ⟨hf1, hf2⟩ := hf
  rw [h2.todo] at hf1
  rw [h2.reads] at hf2
  simp only [finish, hf1, hf2, processFrames, Out.bind_ret] at e
  exact ⟨_, _, e.symm, by simpa using h2.written, h2.mode, h2.dev⟩

/-- C109. The process crashes only if one of the accessories would crash it on its own. -/
theorem C109_crash {σ : Type} {D : Device σ} {R : σ → σ → Prop} (hU : Unseen D R) (hR : ∀ d, R d d) (clock : Nat → Clock)
    (dev : Nat → σ) (reads : Nat → List (Except Err Slice)) (schedule : List Nat)
    (h : (System.start dev reads).run D clock schedule = .panic) :
    ∃ i, processFrames D (clock i) (reads i) (Srv.init (dev i)) = .panic := by
  obtain ⟨i, hi⟩ := run_panic hU clock (fun _ => ⟨[], 0⟩) (fun i => Side.start (dev i) (reads i)) schedule (System.start dev reads)
    (fun i => ⟨0, _, _, rfl, start_like hR clock dev reads i⟩) h
  exact ⟨i, by rwa [finish_start] at hi⟩

/-! ### What the log tells -/

theorem todo_received {mode : Bool} {frame : Slice} {x : Bool × List Command} (h : readCommands mode frame = .ret x) :
    ∀ c ∈ x.2, Received c := by
  obtain ⟨ps, b, hs⟩ := scan_total frame.spare frame.data
  rw [show frame = ⟨frame.data, frame.spare⟩ from rfl, readCommands_scan hs mode] at h
  cases hd : decodeAll mode ps with
  | panic => rw [hd] at h; cases h
  | ret y =>
    rw [hd, Out.bind_ret] at h
    cases b with
    | true => cases h
    | false => cases h; exact decoded_received (decodeAll_ret.1 hd)

/-- Every command waiting to be handled was received. -/
def AllReceived {σ : Type} (t : System σ) : Prop := ∀ i cmds, (t.sides i).todo = some cmds → ∀ c ∈ cmds, Received c

/-- A step changes one loop only; it handles a command that was received or leaves the shared variables, the devices and the
log alone. -/
theorem together_step_cases {σ : Type} {D : Device σ} {clock : Nat → Clock} {t t' : System σ} {i : Nat} (hr : AllReceived t)
    (h : t.step D clock i = .ret t') :
    AllReceived t' ∧ (∀ j, j ≠ i → t'.sides j = t.sides j) ∧
    (∃ r, Side.step D (clock i) t.shared (t.sides i) = .ret (t'.shared, t'.sides i, r)) ∧
    (t'.shared = t.shared ∧ t'.log = t.log ∧ (t'.sides i).dev = (t.sides i).dev ∨
      ∃ cmd c new, Received cmd ∧ Handles D (clock i) cmd ((t.sides i).ctx t.shared) c new ∧
        t'.shared = ⟨c.certBuf, c.counter⟩ ∧ t'.log = t.log ++ [(i, cmd, new)] ∧ (t'.sides i).dev = c.dev) := by
  simp only [System.step] at h
  cases hx : Side.step D (clock i) t.shared (t.sides i) with
  | panic => rw [hx] at h; cases h
  | ret x =>
    rw [hx, Out.bind_ret] at h
    cases h
    have hother : ∀ j, j ≠ i → (if j = i then x.2.1 else t.sides j) = t.sides j := fun j hj => if_neg hj
    have hall : (∀ cmds, x.2.1.todo = some cmds → ∀ c ∈ cmds, Received c) →
        AllReceived (⟨x.1, fun j => if j = i then x.2.1 else t.sides j, t.log ++ (match x.2.2 with
          | some y => [(i, y)]
          | none => [])⟩ : System σ) := by
      intro h1 j cmds hc
      by_cases hj : j = i
      · simp only [hj, if_true] at hc; exact h1 cmds hc
      · simp only [if_neg hj] at hc; exact hr j cmds hc
    suffices hs : (∀ cmds, x.2.1.todo = some cmds → ∀ c ∈ cmds, Received c) ∧
        (x.1 = t.shared ∧ x.2.2 = none ∧ x.2.1.dev = (t.sides i).dev ∨
          ∃ cmd c new, Received cmd ∧ Handles D (clock i) cmd ((t.sides i).ctx t.shared) c new ∧
            x.1 = ⟨c.certBuf, c.counter⟩ ∧ x.2.2 = some (cmd, new) ∧ x.2.1.dev = c.dev) by
      refine ⟨hall hs.1, hother, ⟨x.2.2, by simp only [if_true]⟩, ?_⟩
      rcases hs.2 with ⟨h1, h2, h3⟩ | ⟨cmd, c, new, h0, h1, h2, h3, h4⟩
      · exact .inl ⟨h1, by simp only [h2, List.append_nil], by simpa using h3⟩
      · exact .inr ⟨cmd, c, new, h0, h1, h2, by simp only [h3], by simpa using h4⟩
    have hri := hr i
    revert hx hri
    generalize t.sides i = s
    intro hx hri
    obtain ⟨mode, dev, ticks, reads, todo, out, written⟩ := s
    cases todo with
    | none =>
      cases reads with
      | nil => cases hx; exact ⟨by simp, .inl ⟨rfl, rfl, rfl⟩⟩
      | cons r reads =>
        cases r with
        | error e =>
          by_cases he : e = .eof
          · simp only [Side.step, if_pos he] at hx; cases hx; exact ⟨by simp, .inl ⟨rfl, rfl, rfl⟩⟩
          · simp only [Side.step, if_neg he] at hx; cases hx; exact ⟨by simp, .inl ⟨rfl, rfl, rfl⟩⟩
        | ok frame =>
          simp only [Side.step] at hx
          cases hy : readCommands mode frame with
          | panic => rw [hy] at hx; cases hx
          | ret y =>
            rw [hy, Out.bind_ret] at hx
            cases hx
            exact ⟨fun cmds hc => by cases hc; exact todo_received hy, .inl ⟨rfl, rfl, rfl⟩⟩
    | some cmds =>
      cases cmds with
      | nil => cases hx; exact ⟨by simp, .inl ⟨rfl, rfl, rfl⟩⟩
      | cons cmd cmds =>
        obtain ⟨c, new, hh⟩ := handles_total D (clock i) cmd (Side.ctx ⟨mode, dev, ticks, reads, some (cmd :: cmds), out, written⟩ t.shared)
        simp only [Side.step, hh.1, Out.bind_ret] at hx
        cases hx
        refine ⟨fun l hl => ?_, .inr ⟨cmd, c, new, hri _ rfl cmd (by simp), hh, rfl, ?_, rfl⟩⟩
        · cases hl
          exact fun x hx => hri _ rfl x (by simp [hx])
        · rw [hh.2]; simp [Side.ctx]

theorem start_received {σ : Type} (dev : Nat → σ) (reads : Nat → List (Except Err Slice)) :
    AllReceived (System.start dev reads) := by
  intro i cmds h; cases h

theorem together_run_cons {σ : Type} {D : Device σ} {clock : Nat → Clock} {i : Nat} {is : List Nat} {t t' : System σ}
    (h : t.run D clock (i :: is) = .ret t') : ∃ u, t.step D clock i = .ret u ∧ u.run D clock is = .ret t' := by
  simp only [System.run] at h
  cases hu : t.step D clock i with
  | panic => rw [hu] at h; cases h
  | ret u => rw [hu, Out.bind_ret] at h; exact ⟨u, rfl, h⟩

/-! ### Numbers -/

theorem start_originates {σ : Type} {D : Device σ} {clock : Clock} {cmd : Command} {c c' : Ctx σ} {new : List Command}
    (h : Handles D clock cmd c c' new) (hr : Received cmd) (hs : isStartIDPS cmd = true) :
    new.filter (fun x => DeviceOriginated cmd x) = [] := by
  have ⟨v, hp⟩ : ∃ v, cmd.payload = .ptr (.gen .StartIDPS) v := by
    unfold isStartIDPS at hs; split at hs
    · exact ⟨_, ‹_›⟩
    · cases hs
  have hl := lingo_of_gen (received_wf hr).2 hp
  rw [List.filter_eq_nil_iff]
  intro x hx hc
  rcases handles_mem h hx with ⟨_, _, ha⟩ | he
  · rw [hp] at ha; cases ha
  · rcases of_decide_eq_true hc with e | ⟨⟨w, e⟩, _⟩
    · exact he.notStart e
    · rw [hp] at e; cases e

theorem together_numbered_step {σ : Type} {D : Device σ} {clock : Clock} {cmd : Command} {c c' : Ctx σ} {new : List Command}
    (hr : Received cmd) (h : Handles D clock cmd c c' new) {n : Nat} (hn : c.counter = UInt32.ofNat n) :
    let own := new.filter fun x => DeviceOriginated cmd x
    let m := if isStartIDPS cmd then 0 else n
    own.map (·.trx) = (List.range own.length).map (fun k => some (UInt16.ofNat (m + k + 1))) ∧
      c'.counter = UInt32.ofNat (m + own.length) := by
  intro own m
  obtain ⟨h1, h2⟩ := C46_fresh_numbers h hr
  by_cases hs : isStartIDPS cmd = true
  · have e : own = [] := start_originates h hr hs
    rw [if_pos hs] at h2
    simp [e, m, hs, h2]
  · rw [if_neg hs] at h2
    have hm : m = n := if_neg hs
    refine ⟨?_, by rw [h2, hn, hm, UInt32.ofNat_add]⟩
    have ht : ∀ x ∈ own, x.trx = some (trxNext c.counter).2 := fun x hx => by
      obtain ⟨hx1, hx2⟩ := List.mem_filter.1 hx
      exact C46_originated_transaction h x hx1 (of_decide_eq_true hx2)
    match ho : own with
    | [] => rfl
    | [x] =>
      simp only [List.map_cons, List.map_nil, List.length_singleton, List.range_one, List.cons.injEq, and_true]
      rw [ht x (by simp), hn, hm]
      simp [trxNext]
    | x :: y :: l =>
      have : own.length ≤ 1 := h1
      rw [ho] at this
      simp at this

theorem numbers_run {σ : Type} {D : Device σ} {clock : Nat → Clock} (schedule : List Nat) {t t' : System σ} (hr : AllReceived t)
    {n : Nat} (hn : t.shared.counter = UInt32.ofNat n) (h : t.run D clock schedule = .ret t') :
    ∃ l, t'.log = t.log ++ l ∧ Numbered n l := by
  induction schedule generalizing t n with
  | nil => cases h; exact ⟨[], by simp, trivial⟩
  | cons i is ih =>
    obtain ⟨u, h1, h2⟩ := together_run_cons h
    obtain ⟨hu, -, -, ⟨e1, e2, -⟩ | ⟨cmd, c, new, hc, hh, e1, e2, -⟩⟩ := together_step_cases hr h1
    · obtain ⟨l, hl, hn⟩ := ih hu (by rw [e1]; exact hn) h2
      exact ⟨l, by rw [hl, e2], hn⟩
    · obtain ⟨a, b⟩ := together_numbered_step hc hh (n := n) hn
      obtain ⟨l, hl, hm⟩ := ih hu (by rw [e1]; exact b) h2
      exact ⟨(i, cmd, new) :: l, by rw [hl, e2]; simp, a, hm⟩

/-- C109. The requests the iPod makes are numbered consecutively across all accessories served at the same time, beginning anew
whenever any of them begins its identification. -/
theorem C109_numbers {σ : Type} (D : Device σ) (clock : Nat → Clock) (dev : Nat → σ) (reads : Nat → List (Except Err Slice))
    (schedule : List Nat) {t : System σ} (h : (System.start dev reads).run D clock schedule = .ret t) : Numbered 0 t.log := by
  obtain ⟨l, hl, hn⟩ := numbers_run schedule (start_received dev reads) (n := 0) rfl h
  rw [hl]
  exact hn

theorem frame_carried (m : Bool) (x : Command) :
    CarriedBy x (writePacket newPacketWriter (match (marshalCmd m x).2 with
      | .ok p => p
      | .error _ => [])).1 := by
  refine ⟨(switchOfId x.id).getD m, fun body hb => ?_, fun hn => ?_⟩
  · intro p h1 h2
    rw [(C17_any_id m x p).2 ⟨body, hb, rfl⟩]
    have h0 : 1 ≤ p.length := by
      simp only [p, idBytes, List.length_append]
      split <;> simp only [List.length_cons] <;> omega
    obtain ⟨w, hw, e⟩ := writePacket_isPacket p h0 h1 h2
    simp only [e]
    exact hw
  · cases hm : (marshalCmd m x).2 with
    | error e => rfl
    | ok p =>
      obtain ⟨body, hb, -⟩ := (C17_any_id m x p).1 hm
      exact absurd hb (hn body)

theorem eachCarried_append {a c : List Command} {b d : List Bytes} (h : EachCarried a b) (h' : EachCarried c d) :
    EachCarried (a ++ c) (b ++ d) := by
  induction h with
  | nil => exact h'
  | cons hx _ ih => exact .cons hx ih

theorem sendAll_carried (m : Bool) (xs : List Command) : EachCarried xs (sendAll m xs).2 := by
  induction xs generalizing m with
  | nil => exact .nil
  | cons x xs ih =>
    simp only [sendAll]
    exact .cons (frame_carried m x) (ih _)

/-- The answers logged for a loop: those written, and those waiting to be written. -/
def Accounted {σ : Type} (s : Side σ) (l : List Command) : Prop :=
  (s.todo = none → s.out = []) ∧ ∃ done, l = done ++ s.out ∧ EachCarried done s.written

theorem step_accounted {σ : Type} {D : Device σ} {clock : Clock} {g : Shared} {s : Side σ}
    {x : Shared × Side σ × Option (Command × List Command)} (h : Side.step D clock g s = .ret x) {l : List Command}
    (hl : Accounted s l) : Accounted x.2.1 (l ++ (match x.2.2 with
      | some y => y.2
      | none => [])) := by
  obtain ⟨mode, dev, ticks, reads, todo, out, written⟩ := s
  obtain ⟨h1, done, h2, h3⟩ := hl
  cases todo with
  | none =>
    cases reads with
    | nil => cases h; exact ⟨h1, done, by simpa using h2, h3⟩
    | cons r reads =>
      cases r with
      | error e =>
        by_cases he : e = .eof
        · simp only [Side.step, if_pos he] at h; cases h; exact ⟨h1, done, by simpa using h2, h3⟩
        · simp only [Side.step, if_neg he] at h; cases h; exact ⟨h1, done, by simpa using h2, h3⟩
      | ok frame =>
        simp only [Side.step] at h
        cases hy : readCommands mode frame with
        | panic => rw [hy] at h; cases h
        | ret y =>
          rw [hy, Out.bind_ret] at h
          cases h
          have : out = [] := h1 rfl
          subst this
          exact ⟨fun _ => rfl, done, by simpa using h2, h3⟩
  | some cmds =>
    cases cmds with
    | nil =>
      cases h
      exact ⟨fun _ => rfl, l, by simp, by rw [h2]; exact eachCarried_append h3 (sendAll_carried mode out)⟩
    | cons cmd cmds =>
      obtain ⟨c, new, hh⟩ := handles_total D clock cmd (Side.ctx ⟨mode, dev, ticks, reads, some (cmd :: cmds), out, written⟩ g)
      simp only [Side.step, hh.1, Out.bind_ret] at h
      cases h
      refine ⟨fun h => (by cases h), done, ?_, h3⟩
      rw [hh.2]
      simp [Side.ctx, h2]

theorem accounted_run {σ : Type} {D : Device σ} {clock : Nat → Clock} (schedule : List Nat) {t t' : System σ} (i : Nat)
    (hl : Accounted (t.sides i) (answersFor i t.log)) (h : t.run D clock schedule = .ret t') :
    Accounted (t'.sides i) (answersFor i t'.log) := by
  induction schedule generalizing t with
  | nil => cases h; exact hl
  | cons j js ih =>
    obtain ⟨u, h1, h2⟩ := together_run_cons h
    refine ih ?_ h2
    simp only [System.step] at h1
    cases hx : Side.step D (clock j) t.shared (t.sides j) with
    | panic => rw [hx] at h1; cases h1
    | ret x =>
      rw [hx, Out.bind_ret] at h1
      cases h1
      by_cases hj : i = j
      · subst hj
        have := step_accounted hx hl
        simp only [if_true]
        refine cast (congrArg _ ?_) this
        cases x.2.2 <;> simp [answersFor]
      · simp only [if_neg hj]
        refine cast (congrArg _ ?_) hl
        have hj' : ¬ j = i := fun h => hj h.symm
        cases x.2.2 <;> simp [answersFor, hj']

/-- C109. The frames written to an accessory carry the answers to the commands handled for it, one by one, with the numbers of
`C109_numbers`. -/
theorem C109_written {σ : Type} (D : Device σ) (clock : Nat → Clock) (dev : Nat → σ) (reads : Nat → List (Except Err Slice))
    (schedule : List Nat) {t : System σ} (h : (System.start dev reads).run D clock schedule = .ret t) (i : Nat)
    (hf : Finished (t.sides i)) : EachCarried (answersFor i t.log) (t.sides i).written := by
  obtain ⟨h1, done, h2, h3⟩ := accounted_run schedule i (t := System.start dev reads) ⟨fun _ => rfl, [], rfl, .nil⟩ h
  rw [h2, h1 hf.1, List.append_nil]
  exact h3

/-! ### Certificates -/

theorem certificates_run {σ : Type} {D : Device σ} {clock : Nat → Clock} (schedule : List Nat)
    {t t' : System (σ × List Bytes)} (hr : AllReceived t) (i : Nat)
    (hb : t.shared.certBuf = sinceFirst (t.log.reverse.filterMap fun x => certSection x.2.1))
    (hd : (t.sides i).dev.2 = handed i (t.log.reverse.map fun x => (x.1, x.2.1)))
    (h : t.run (recording D) clock schedule = .ret t') :
    (t'.sides i).dev.2 = handed i (t'.log.reverse.map fun x => (x.1, x.2.1)) := by
  induction schedule generalizing t with
  | nil => cases h; exact hd
  | cons j js ih =>
    obtain ⟨u, h1, h2⟩ := together_run_cons h
    obtain ⟨hu, hother, -, ⟨e1, e2, e3⟩ | ⟨cmd, c, new, hc, hh, e1, e2, e3⟩⟩ := together_step_cases hr h1
    · refine ih hu (by rw [e1, e2, hb]) ?_ h2
      rw [e2, ← hd]
      by_cases hi : i = j
      · subst hi; rw [e3]
      · rw [hother i hi]
    · obtain ⟨hn, hs⟩ := recording_step hc hh.1
      cases hcs : certSection cmd with
      | none =>
        obtain ⟨b1, b2⟩ := hn hcs
        refine ih hu ?_ ?_ h2
        · rw [e1, e2]
          simpa [hcs] using b1.trans hb
        · rw [e2]
          simp only [List.reverse_append, List.reverse_cons, List.reverse_nil, List.nil_append, List.cons_append, List.map_cons,
            handed, hcs, List.append_nil]
          rw [← hd]
          by_cases hi : i = j
          · subst hi; rw [e3, b2]; rfl
          · rw [hother i hi]
      | some x =>
        obtain ⟨cur, max, data⟩ := x
        obtain ⟨b1, b2⟩ := hs cur max data hcs
        have hbuf : c.certBuf = sinceFirst ((cur, max, data) :: (t.log.reverse.filterMap fun x => certSection x.2.1)) := by
          rw [b1]
          simp only [sinceFirst, ← hb, Side.ctx]
          split <;> simp
        refine ih hu ?_ ?_ h2
        · rw [e1, e2, hbuf]
          simp [hcs]
        · rw [e2]
          simp only [List.reverse_append, List.reverse_cons, List.reverse_nil, List.nil_append, List.cons_append, List.map_cons,
            handed, hcs, List.filterMap_map, Function.comp_def]
          rw [← hbuf, ← hd]
          by_cases hi : i = j
          · subst hi
            rw [e3, b2]
            by_cases hlt : cur < max
            · simp [hlt, Side.ctx]
            · simp [hlt, Side.ctx]
          · rw [hother i hi, if_neg (fun h => hi h.1.symm), List.append_nil]

/-- C109. The certificates each device is handed are those made of the sections received from all accessories since the latest
first section of any of them. -/
theorem C109_certificates {σ : Type} (D : Device σ) (clock : Nat → Clock) (dev : Nat → σ) (reads : Nat → List (Except Err Slice))
    (schedule : List Nat) {t : System (σ × List Bytes)}
    (h : (System.start (fun i => (dev i, [])) reads).run (recording D) clock schedule = .ret t) (i : Nat) :
    (t.sides i).dev.2 = handed i (t.log.reverse.map fun x => (x.1, x.2.1)) :=
  certificates_run schedule (start_received _ reads) i rfl rfl h

theorem sinceFirst_sections {max : UInt8} {k : Nat} {cmds : List Command} {ds : List Bytes} (h : Sections max k cmds ds)
    (earlier : List (UInt8 × UInt8 × Bytes)) :
    sinceFirst ((cmds.filterMap certSection).reverse ++ earlier) =
      if k = 0 then ds.flatten else sinceFirst earlier ++ ds.flatten := by
  induction h generalizing earlier with
  | last cmd data cur i hc hi hm =>
    have : cur = 0 ↔ i = 0 := by rw [← UInt8.toNat_inj, hi]; simp
    simp [hc, sinceFirst, this]
  | next cmd data cur i cmds ds hc hi hm _ ih =>
    have : cur = 0 ↔ i = 0 := by rw [← UInt8.toNat_inj, hi]; simp
    simp only [List.filterMap_cons, hc, List.reverse_cons, List.append_assoc, List.singleton_append]
    rw [ih, if_neg (by omega)]
    simp only [sinceFirst, this]
    split <;> simp
  | other cmd i cmds ds hc _ ih => simpa [List.filterMap_cons, hc] using ih earlier

theorem together_sections_last {max : UInt8} {k : Nat} {cmds : List Command} {ds : List Bytes} (h : Sections max k cmds ds) :
    ∃ init cmd data, cmds = init ++ [cmd] ∧ certSection cmd = some (max, max, data) := by
  induction h with
  | last cmd data cur i hc hi hm =>
    have : cur = max := by rw [← UInt8.toNat_inj, hi, hm]
    subst this
    exact ⟨[], cmd, data, rfl, hc⟩
  | next cmd _ _ _ _ _ _ _ _ _ ih =>
    obtain ⟨init, x, d, e, hx⟩ := ih
    exact ⟨cmd :: init, x, d, by simp [e], hx⟩
  | other cmd _ _ _ _ _ ih =>
    obtain ⟨init, x, d, e, hx⟩ := ih
    exact ⟨cmd :: init, x, d, by simp [e], hx⟩

/-- C109. If no other accessory sends a section while the sections of a certificate come in, in order, that certificate is the
one handed over. -/
theorem C109_own_certificate_partial {σ : Type} (D : Device σ) (clock : Nat → Clock) (dev : Nat → σ)
    (reads : Nat → List (Except Err Slice)) (schedule : List Nat) {t : System (σ × List Bytes)}
    (h : (System.start (fun i => (dev i, [])) reads).run (recording D) clock schedule = .ret t) (i : Nat)
    {pre mid : List (Nat × Command × List Command)} (hl : t.log = pre ++ mid) {max : UInt8} {ds : List Bytes}
    (hs : Sections max 0 (mid.map fun x => x.2.1) ds) (ho : ∀ x ∈ mid, certSection x.2.1 ≠ none → x.1 = i) :
    (t.sides i).dev.2.getLast? = some ds.flatten := by
  obtain ⟨init, cmd, data, e, hc⟩ := together_sections_last hs
  obtain ⟨mid', y, hm, e1, e2⟩ := List.map_eq_append_iff.1 e
  obtain ⟨⟨j, cmd', new⟩, rfl⟩ : ∃ z, y = [z] := by
    cases y with
    | nil => simp at e2
    | cons z zs =>
      cases zs with
      | nil => exact ⟨z, rfl⟩
      | cons _ _ => simp at e2
  simp only [List.map_cons, List.map_nil, List.cons.injEq, and_true] at e2
  subst e2
  have hj : j = i := ho (j, cmd', new) (by simp [hm]) (by rw [hc]; simp)
  subst hj
  have key := sinceFirst_sections hs (pre.reverse.filterMap fun x => certSection x.2.1)
  rw [C109_certificates D clock dev reads schedule h j, hl, hm]
  simp only [List.reverse_append, List.reverse_cons, List.reverse_nil, List.nil_append, List.cons_append, List.map_cons,
    handed, hc, List.filterMap_map, Function.comp_def]
  rw [if_pos ⟨trivial, by simp⟩, List.getLast?_append]
  simp only [List.getLast?_singleton]
  rw [hm] at key
  simpa [hc, List.filterMap_append, Function.comp_def, ← List.filterMap_reverse] using key

/-! ### Undisturbed -/

theorem apart_shared {σ : Type} {D : Device σ} {clock : Clock} {cmd : Command} {c c' : Ctx σ} (ha : Apart cmd)
    (h : handlePacket D clock cmd c = .ret c') : c'.certBuf = c.certBuf ∧ c'.counter = c.counter := by
  by_cases hl : cmd.id.lingoID = 0x00
  · rw [handlePacket_general _ _ _ _ hl] at h
    obtain ⟨h1, h2, h3⟩ := ha
    have he : afterAudio cmd c = c := by
      unfold afterAudio
      rw [if_neg]
      intro hc
      unfold authComplete at hc
      split at hc
      · exact h3 _ ‹_›
      · cases hc
    rw [he] at h
    unfold handleGeneral at h
    split at h
    all_goals try simp only [Ctx.ack, Ctx.ackSuccess, Ctx.ackPending, respond_eq, send_eq, out_ret_bind] at h
    all_goals repeat' split at h
    all_goals cases h
    all_goals first
      | exact ⟨rfl, rfl⟩
      | (exact absurd ‹_› (h2 _))
      | (exact absurd ‹_› (h3 _))
      | (simp_all [isStartIDPS]; done)
  · exact (handlePacket_other hl h).2

theorem same_run {σ : Type} {D : Device σ} {clock : Nat → Clock} (schedule : List Nat) {t t' : System σ} (hr : AllReceived t)
    (i : Nat) (g0 : Shared) (s0 : Side σ) {n : Nat} (h0 : goOn D (clock i) n g0 s0 = .ret (t.shared, t.sides i))
    (h : t.run D clock schedule = .ret t') :
    (∃ l, t'.log = t.log ++ l) ∧ ((∀ x ∈ t'.log, x.1 ≠ i → Apart x.2.1) →
      ∃ n, goOn D (clock i) n g0 s0 = .ret (t'.shared, t'.sides i)) := by
  have hmono : ∀ (schedule : List Nat) {t t' : System σ}, AllReceived t → t.run D clock schedule = .ret t' →
      ∃ l, t'.log = t.log ++ l := by
    intro schedule
    induction schedule with
    | nil => intro t t' _ h; cases h; exact ⟨[], by simp⟩
    | cons j js ih =>
      intro t t' hr h
      obtain ⟨u, h1, h2⟩ := together_run_cons h
      obtain ⟨hu, -, -, hcase⟩ := together_step_cases hr h1
      obtain ⟨l, hl⟩ := ih hu h2
      rcases hcase with ⟨-, e, -⟩ | ⟨cmd, c, new, -, -, -, e, -⟩
      · exact ⟨l, by rw [hl, e]⟩
      · exact ⟨(j, cmd, new) :: l, by rw [hl, e]; simp⟩
  refine ⟨hmono schedule hr h, ?_⟩
  induction schedule generalizing t n with
  | nil => cases h; exact fun _ => ⟨n, h0⟩
  | cons j js ih =>
    intro ho
    obtain ⟨u, h1, h2⟩ := together_run_cons h
    obtain ⟨hu, hother, ⟨r, hstep⟩, hcase⟩ := together_step_cases hr h1
    by_cases hj : i = j
    · subst hj
      exact ih hu (n := n + 1) (by simp only [goOn, h0, Out.bind_ret, hstep]) h2 ho
    · refine ih hu (n := n) ?_ h2 ho
      rw [h0, hother i hj]
      rcases hcase with ⟨e, -, -⟩ | ⟨cmd, c, new, -, hh, e, el, -⟩
      · rw [e]
      · obtain ⟨l, hl⟩ := hmono js hu h2
        obtain ⟨b1, b2⟩ := apart_shared (ho (j, cmd, new) (by rw [hl, el]; simp) (fun h => hj h.symm)) hh.1
        rw [e, b1, b2]
        rfl

/-- C109. If the commands handled for the others neither start nor end an identification nor carry a certificate, everything is
as if the accessory were served alone. -/
theorem C109_same_partial {σ : Type} (D : Device σ) (clock : Nat → Clock) (dev : Nat → σ) (reads : Nat → List (Except Err Slice))
    (schedule : List Nat) {t : System σ} (h : (System.start dev reads).run D clock schedule = .ret t) (i : Nat)
    (hf : Finished (t.sides i)) (ho : ∀ x ∈ t.log, x.1 ≠ i → Apart x.2.1) :
    ∃ s, processFrames D (clock i) (reads i) (Srv.init (dev i)) = .ret (s, (t.sides i).written) ∧
      s.mode = (t.sides i).mode ∧ s.ctx.dev = (t.sides i).dev := by
  obtain ⟨n, hn⟩ := (same_run schedule (start_received dev reads) i ⟨[], 0⟩ (Side.start (dev i) (reads i)) (n := 0) rfl h).2 ho
  have e := finish_goOn D (clock i) n ⟨[], 0⟩ (Side.start (dev i) (reads i))
  rw [hn, Out.bind_ret, finish_start] at e
  obtain ⟨hf1, hf2⟩ := hf
  simp only [finish, hf1, hf2, processFrames, Out.bind_ret, List.append_nil] at e
  exact ⟨_, e.symm, rfl, rfl⟩

/-! ### When they do disturb each other -/

/-- A run that ends, and what is seen then. -/
theorem runs_seen {σ α : Type} [DecidableEq α] {x : Out (System σ)} {f : System σ → α} {a : α}
    (h : (match x with
      | .ret t => some (f t)
      | .panic => none) = some a) : ∃ t, x = .ret t ∧ f t = a := by
  cases x with
  | panic => cases h
  | ret t => exact ⟨t, rfl, by simpa using h⟩

/-- The first and the second section of a certificate of accessory 0, and the first section of one of accessory 1. -/
def certReads : Nat → List (Except Err Slice)
  | 0 => [.ok ⟨[0x55, 0x07, 0x00, 0x15, 0x02, 0x00, 0x00, 0x01, 0xAA, 0x37], []⟩,
      .ok ⟨[0x55, 0x07, 0x00, 0x15, 0x02, 0x00, 0x01, 0x01, 0xCC, 0x14], []⟩]
  | 1 => [.ok ⟨[0x55, 0x07, 0x00, 0x15, 0x02, 0x00, 0x00, 0x01, 0xBB, 0x26], []⟩]
  | _ => []

/-- StartIDPS, EndIDPS and a certificate in one section of accessory 0; StartIDPS of accessory 1. -/
def idpsReads : Nat → List (Except Err Slice)
  | 0 => [.ok ⟨startIDPSFrame, []⟩, .ok ⟨[0x55, 0x05, 0x00, 0x3B, 0x00, 0x02, 0x00, 0xBE], []⟩,
      .ok ⟨[0x55, 0x09, 0x00, 0x15, 0x00, 0x03, 0x02, 0x00, 0x00, 0x00, 0xAA, 0x33], []⟩]
  | 1 => [.ok ⟨startIDPSFrame, []⟩]
  | _ => []

/-- A clock that stands still. -/
def still : Clock := fun _ => ⟨2024, 1, 2, 3, 4⟩

/-- The process serving the accessories with the device of the code, recording the certificates. -/
def servesBoth (reads : Nat → List (Except Err Slice)) (schedule : List Nat) : Out (System (DevGeneral × List Bytes)) :=
  (System.start (fun _ => (DevGeneral.zero, [])) reads).run (recording devGeneral) (fun _ => still) schedule

/-- The loop is seen to have nothing left to do. -/
theorem finished_seen {σ : Type} {s : Side σ} (h : (s.todo.isNone && s.reads.isEmpty) = true) : Finished s := by
  simp only [Bool.and_eq_true, Option.isNone_iff_eq_none, List.isEmpty_iff] at h
  exact h

/-- What is seen after four runs. -/
theorem cert_mixed : ∃ t, servesBoth certReads [0, 0, 0, 1, 1, 1, 0, 0, 0] = .ret t ∧
    ((t.sides 0).dev.2, handed 0 (t.log.reverse.map fun x => (x.1, x.2.1))) = ([[0xBB, 0xCC]], [[0xBB, 0xCC]]) :=
  runs_seen (f := fun t : System (DevGeneral × List Bytes) =>
    ((t.sides 0).dev.2, handed 0 (t.log.reverse.map fun x => (x.1, x.2.1)))) (by decide +kernel)

set_option synthInstance.maxSize 4096 in
theorem cert_unmixed : ∃ t, servesBoth certReads [1, 1, 1, 0, 0, 0, 0, 0, 0] = .ret t ∧
    ((t.sides 0).dev.2, t.log.map (·.1), t.log.map fun x => certSection x.2.1) =
      ([[0xAA, 0xCC]], [1, 0, 0], [some (0, 1, [0xBB]), some (0, 1, [0xAA]), some (1, 1, [0xCC])]) :=
  runs_seen (f := fun t : System (DevGeneral × List Bytes) =>
    ((t.sides 0).dev.2, t.log.map (·.1), t.log.map fun x => certSection x.2.1)) (by decide +kernel)

set_option synthInstance.maxSize 4096 in
theorem idps_mixed : ∃ t, servesBoth idpsReads [0, 0, 0, 0, 0, 0, 1, 1, 1, 0, 0, 0] = .ret t ∧
    (((t.sides 0).written.take 4).drop 2, (t.sides 0).todo.isNone && (t.sides 0).reads.isEmpty,
      t.log.map fun x => (x.1, (x.2.2.filter fun y => DeviceOriginated x.2.1 y).map (·.trx))) =
    ([[0x55, 0x04, 0x00, 0x14, 0x00, 0x01, 0xE7], [0x55, 0x04, 0x0A, 0x02, 0x00, 0x01, 0xEF]], true,
      [(0, []), (0, [some 1]), (1, []), (0, [some 1])]) :=
  runs_seen (f := fun t : System (DevGeneral × List Bytes) => (((t.sides 0).written.take 4).drop 2,
    (t.sides 0).todo.isNone && (t.sides 0).reads.isEmpty,
    t.log.map fun x => (x.1, (x.2.2.filter fun y => DeviceOriginated x.2.1 y).map (·.trx)))) (by decide +kernel)

theorem idps_apart : ∃ t, servesBoth (fun i => if i = 1 then [.ok ⟨askUIMode, []⟩] else idpsReads 0)
      [0, 0, 0, 0, 0, 0, 1, 1, 1, 0, 0, 0] = .ret t ∧
    (((t.sides 0).written.take 4).drop 2, (t.sides 0).todo.isNone && (t.sides 0).reads.isEmpty,
      t.log.all fun x => x.1 == 0 || match x.2.1.payload with
        | .ptr (.gen .GetUIMode) _ => true
        | _ => false) =
    ([[0x55, 0x04, 0x00, 0x14, 0x00, 0x01, 0xE7], [0x55, 0x04, 0x0A, 0x02, 0x00, 0x02, 0xEE]], true, true) :=
  runs_seen (f := fun t : System (DevGeneral × List Bytes) => (((t.sides 0).written.take 4).drop 2,
    (t.sides 0).todo.isNone && (t.sides 0).reads.isEmpty,
    t.log.all fun x => x.1 == 0 || match x.2.1.payload with
      | .ptr (.gen .GetUIMode) _ => true
      | _ => false)) (by decide +kernel)

/-- C109 fails. A section of another accessory's certificate coming in between, the device is handed a certificate nobody sent,
though the accessory sent its own in order; and the other accessory beginning its identification in between, two requests to
the same accessory carry the same number. -/
theorem C109_fails :
    (∃ t, servesBoth certReads [0, 0, 0, 1, 1, 1, 0, 0, 0] = .ret t ∧ (t.sides 0).dev.2 = [[0xBB, 0xCC]]) ∧
    (∃ t, servesBoth certReads [1, 1, 1, 0, 0, 0, 0, 0, 0] = .ret t ∧ (t.sides 0).dev.2 = [[0xAA, 0xCC]]) ∧
    (∃ t, servesBoth idpsReads [0, 0, 0, 0, 0, 0, 1, 1, 1, 0, 0, 0] = .ret t ∧ ((t.sides 0).written.take 4).drop 2 =
      [[0x55, 0x04, 0x00, 0x14, 0x00, 0x01, 0xE7], [0x55, 0x04, 0x0A, 0x02, 0x00, 0x01, 0xEF]]) ∧
    (∃ t, servesBoth (fun i => if i = 1 then [.ok ⟨askUIMode, []⟩] else idpsReads 0)
        [0, 0, 0, 0, 0, 0, 1, 1, 1, 0, 0, 0] = .ret t ∧ ((t.sides 0).written.take 4).drop 2 =
      [[0x55, 0x04, 0x00, 0x14, 0x00, 0x01, 0xE7], [0x55, 0x04, 0x0A, 0x02, 0x00, 0x02, 0xEE]]) := by
  refine ⟨?_, ?_, ?_, ?_⟩
  · obtain ⟨t, h, e⟩ := cert_mixed
    exact ⟨t, h, (Prod.mk.inj e).1⟩
  · obtain ⟨t, h, e⟩ := cert_unmixed
    exact ⟨t, h, (Prod.mk.inj e).1⟩
  · obtain ⟨t, h, e⟩ := idps_mixed
    exact ⟨t, h, (Prod.mk.inj e).1⟩
  · obtain ⟨t, h, e⟩ := idps_apart
    exact ⟨t, h, (Prod.mk.inj e).1⟩

/-- The device of the code, recording certificates. -/
theorem recording_unseen : Unseen (recording devGeneral) (fun d e => d.1.uimode = e.1.uimode) where
  uiMode h := h
  name _ := rfl
  softwareVersion _ := rfl
  serialNum _ := rfl
  lingoProtocolVersion _ _ := rfl
  lingoOptions _ _ := rfl
  prefSettingID _ _ := rfl
  eventNotificationMask _ := rfl
  supportedEventNotificationMask _ := rfl
  maxPayload _ := rfl
  setUIMode _ _ := rfl
  setPrefSettingID h _ _ _ := h
  startIDPS h := h
  endIDPS h _ := h
  setToken h _ := h
  accAuthCert h _ _ := h
  setEventNotificationMask h _ := h
  cancelCommand h _ _ _ := h

example : ∃ t s w, servesBoth idpsReads [0, 0, 0, 0, 0, 0, 1, 1, 1, 0, 0, 0] = .ret t ∧
    processFrames (recording devGeneral) still (idpsReads 0) (Srv.init (DevGeneral.zero, [])) = .ret (s, w) ∧
    FramesAlike (t.sides 0).written w := by
  obtain ⟨t, ht, hf⟩ := idps_mixed
  obtain ⟨s, w, h1, h2, -⟩ := C109_answers recording_unseen (fun _ => rfl) (fun _ => still) (fun _ => (DevGeneral.zero, []))
    idpsReads _ ht 0 (finished_seen (Prod.mk.inj (Prod.mk.inj hf).2).1)
  exact ⟨t, s, w, ht, h1, h2⟩

/-- A length beyond the end of the frame, in the first read of accessory 3. -/
example : (System.start (fun _ => DevGeneral.zero)
      (fun i => if i = 3 then [.ok ⟨[0x55, 0xff, 1, 2], []⟩] else [.ok ⟨[], []⟩])).run
        devGeneral (fun _ => still) [0, 1, 0, 3] = .panic := by
  have h : (match (System.start (fun _ => DevGeneral.zero)
      (fun i => if i = 3 then [.ok ⟨[0x55, 0xff, 1, 2], []⟩] else [.ok ⟨[], []⟩])).run
        devGeneral (fun _ => still) [0, 1, 0, 3] with
      | .ret _ => false
      | .panic => true) = true := by decide +kernel
  split at h
  · cases h
  · assumption

/-- Two requests to accessory 0, the identification of accessory 1 beginning in between: both are the first. -/
example : ∃ t, servesBoth idpsReads [0, 0, 0, 0, 0, 0, 1, 1, 1, 0, 0, 0] = .ret t ∧ Numbered 0 t.log ∧
    t.log.map (fun x => (x.1, (x.2.2.filter fun y => DeviceOriginated x.2.1 y).map (·.trx))) =
      [(0, []), (0, [some 1]), (1, []), (0, [some 1])] := by
  obtain ⟨t, ht, hf⟩ := idps_mixed
  exact ⟨t, ht, C109_numbers _ _ _ _ _ ht, (Prod.mk.inj (Prod.mk.inj hf).2).2⟩

/-- The two requests are written, among other frames. -/
example : ∃ t, servesBoth idpsReads [0, 0, 0, 0, 0, 0, 1, 1, 1, 0, 0, 0] = .ret t ∧
    EachCarried (answersFor 0 t.log) (t.sides 0).written ∧
    ((t.sides 0).written.take 4).drop 2 =
      [[0x55, 0x04, 0x00, 0x14, 0x00, 0x01, 0xE7], [0x55, 0x04, 0x0A, 0x02, 0x00, 0x01, 0xEF]] := by
  obtain ⟨t, ht, hf⟩ := idps_mixed
  exact ⟨t, ht, C109_written _ _ _ _ _ ht 0 (finished_seen (Prod.mk.inj (Prod.mk.inj hf).2).1), (Prod.mk.inj hf).1⟩

/-- What accessory 0 of `C109_fails` is handed, by the theorem. -/
example : ∃ t, servesBoth certReads [0, 0, 0, 1, 1, 1, 0, 0, 0] = .ret t ∧
    (t.sides 0).dev.2 = handed 0 (t.log.reverse.map fun x => (x.1, x.2.1)) ∧
    handed 0 (t.log.reverse.map fun x => (x.1, x.2.1)) = [[0xBB, 0xCC]] := by
  obtain ⟨t, ht, hf⟩ := cert_mixed
  exact ⟨t, ht, C109_certificates devGeneral (fun _ => still) (fun _ => DevGeneral.zero) certReads _ ht 0, (Prod.mk.inj hf).2⟩

/-- The other accessory's section before: accessory 0's certificate is its own. -/
example : ∃ t, servesBoth certReads [1, 1, 1, 0, 0, 0, 0, 0, 0] = .ret t ∧ (t.sides 0).dev.2.getLast? = some [0xAA, 0xCC] := by
  obtain ⟨t, ht, hf⟩ := cert_unmixed
  simp only [Prod.mk.injEq] at hf
  obtain ⟨-, hf, hg⟩ := hf
  match hl : t.log with
  | [] | [_] | [_, _] | _ :: _ :: _ :: _ :: _ => simp [hl] at hf
  | [x, y, z] =>
    simp only [hl, List.map_cons, List.map_nil, List.cons.injEq, and_true] at hf hg
    obtain ⟨h1, h2, h3⟩ := hf
    obtain ⟨h4, h5, h6⟩ := hg
    exact ⟨t, ht, C109_own_certificate_partial devGeneral (fun _ => still) (fun _ => DevGeneral.zero) certReads _ ht 0
      (pre := [x]) (mid := [y, z]) hl (.next _ _ _ _ _ _ h5 rfl (by decide) (.last _ _ _ _ h6 rfl rfl))
      (by intro w hw _; simp only [List.mem_cons, List.not_mem_nil, or_false] at hw; rcases hw with rfl | rfl <;> assumption)⟩

/-- Accessory 1 only asks for the UI mode: the requests to accessory 0 are numbered as if it were alone. -/
example : ∃ t s, servesBoth (fun i => if i = 1 then [.ok ⟨askUIMode, []⟩] else idpsReads 0)
      [0, 0, 0, 0, 0, 0, 1, 1, 1, 0, 0, 0] = .ret t ∧
    processFrames (recording devGeneral) still (idpsReads 0) (Srv.init (DevGeneral.zero, [])) = .ret (s, (t.sides 0).written) := by
  obtain ⟨t, ht, hf⟩ := idps_apart
  simp only [Prod.mk.injEq] at hf
  obtain ⟨s, h1, -⟩ := C109_same_partial (recording devGeneral) (fun _ => still) (fun _ => (DevGeneral.zero, [])) _ _ ht 0
    (finished_seen hf.2.1)
    (by
      intro x hx hne
      have := List.all_eq_true.1 hf.2.2 x hx
      simp only [Bool.or_eq_true, beq_iff_eq, hne, false_or] at this
      split at this
      · rename_i hp
        exact ⟨by simp [isStartIDPS, hp], by simp [hp], by simp [hp]⟩
      · cases this)
  exact ⟨t, s, ht, h1⟩

end Props
