import Verif.Spec.Listeners
import Verif.Props.Readers

/-! # Property C127: several transports that read from one device -/

namespace Props
open Go Spec Ipod Ipod.Hid

/-- Successive calls of `ReadFrame`: what they returned, what is left to read, and the buffer. -/
def callsOn (grow : Growth) (defs : List ReportDef) :
    Nat → List (Except Err Report) → Slice → Out (List (Except Err Bytes) × List (Except Err Report) × Slice)
  | 0, rs, buf => .ret ([], rs, buf)
  | n + 1, rs, buf =>
    match readFrame grow defs rs buf with
    | .panic => .panic
    | .ret (rs, buf, x) =>
      match callsOn grow defs n rs buf with
      | .panic => .panic
      | .ret (more, rs, buf) => .ret (x.map (·.data) :: more, rs, buf)

theorem callsOn_snoc {grow : Growth} {defs : List ReportDef} {n : Nat} {input : List (Except Err Report)} {b0 : Slice}
    {xs : List (Except Err Bytes)} {rest : List (Except Err Report)} {buf : Slice} {rest' : List (Except Err Report)} {buf' : Slice}
    {x : Except Err Slice} (h1 : callsOn grow defs n input b0 = .ret (xs, rest, buf))
    (h2 : readFrame grow defs rest buf = .ret (rest', buf', x)) :
    callsOn grow defs (n + 1) input b0 = .ret (xs ++ [x.map (·.data)], rest', buf') := by
  induction n generalizing input b0 xs with
  | zero =>
    simp only [callsOn, Out.ret.injEq, Prod.mk.injEq] at h1
    obtain ⟨rfl, rfl, rfl⟩ := h1
    simp [callsOn, h2]
  | succ n ih =>
    rw [callsOn] at h1 ⊢
    cases hf : readFrame grow defs input b0 with
    | panic => rw [hf] at h1; cases h1
    | ret y =>
      obtain ⟨r1, b1, y⟩ := y
      rw [hf] at h1
      simp only at h1 ⊢
      cases hm : callsOn grow defs n r1 b1 with
      | panic => rw [hm] at h1; cases h1
      | ret z =>
        obtain ⟨more, r2, b2⟩ := z
        rw [hm] at h1
        simp only [Out.ret.injEq, Prod.mk.injEq] at h1
        obtain ⟨rfl, rfl, rfl⟩ := h1
        rw [ih hm]
        rfl

theorem callsOn_frames {grow : Growth} {defs : List ReportDef} {n : Nat} {input : List (Except Err Report)} {b0 : Slice}
    {xs : List (Except Err Bytes)} {rest : List (Except Err Report)} {buf : Slice} (h : callsOn grow defs n input b0 = .ret (xs, rest, buf)) :
    readFrames grow defs n input b0 = .ret xs := by
  induction n generalizing input b0 xs with
  | zero =>
    simp only [callsOn, Out.ret.injEq, Prod.mk.injEq] at h
    rw [← h.1]; rfl
  | succ n ih =>
    rw [callsOn] at h
    rw [readFrames]
    cases hf : readFrame grow defs input b0 with
    | panic => rw [hf] at h; cases h
    | ret y =>
      obtain ⟨r1, b1, y⟩ := y
      rw [hf] at h
      simp only at h ⊢
      cases hm : callsOn grow defs n r1 b1 with
      | panic => rw [hm] at h; cases h
      | ret z =>
        obtain ⟨more, r2, b2⟩ := z
        rw [hm] at h
        simp only [Out.ret.injEq, Prod.mk.injEq] at h
        obtain ⟨rfl, rfl, rfl⟩ := h
        rw [ih hm]
        rfl

theorem readBy_append {α : Type} (i : Nat) (a b : List (Nat × α)) : readBy i (a ++ b) = readBy i a ++ readBy i b := by simp [readBy]

theorem readBy_same {α : Type} (i : Nat) (a : List (Nat × α)) (x : α) : readBy i (a ++ [(i, x)]) = readBy i a ++ [x] := by simp [readBy]

theorem readBy_other {α : Type} {i j : Nat} (h : i ≠ j) (a : List (Nat × α)) (x : α) : readBy j (a ++ [(i, x)]) = readBy j a := by
  simp [readBy, h]

/-- What transport `w`, which has read `took`, has returned and has in its buffer; `input`: what is left. -/
def ListenerOk (grow : Growth) (defs : List ReportDef) (input took : List (Except Err Report)) (w : Listener) : Prop :=
  ∀ rest, (input = [] → rest = []) →
    if w.inCall then ∃ r0 b0, callsOn grow defs w.returned.length (took ++ rest) ⟨[], []⟩ = .ret (w.returned, r0, b0) ∧
      readFrame grow defs r0 b0 = readFrameLoop grow defs rest w.buf
    else callsOn grow defs w.returned.length (took ++ rest) ⟨[], []⟩ = .ret (w.returned, rest, w.buf)

def ListenersOk (grow : Growth) (defs : List ReportDef) (all : List (Except Err Report)) (s : Listeners) : Prop :=
  s.log.map (·.2) ++ s.input = all ∧ ∀ (j : Nat) (w : Listener), s.all[j]? = some w → ListenerOk grow defs s.input (readBy j s.log) w

theorem listeners_step (grow : Growth) {defs : List ReportDef} {all : List (Except Err Report)} {s : Listeners}
    (h : ListenersOk grow defs all s) (i : Nat) : ListenersOk grow defs all (s.step grow defs i) := by
  have h0 := h
  obtain ⟨h1, h2⟩ := h
  rw [Listeners.step]
  by_cases hc : s.crashed = true
  · rw [if_pos hc]; exact h0
  rw [if_neg hc]
  cases hi : s.all[i]? with
  | none => exact h0
  | some w =>
    have hw := h2 i w hi
    have hlt : i < s.all.length := (List.getElem?_eq_some_iff.1 hi).1
    simp only
    -- the others are as before, `i` is `w'`
    have others : ∀ (w' : Listener) (input' : List (Except Err Report)) (log' : List (Nat × Except Err Report)),
        (∀ j, j ≠ i → readBy j log' = readBy j s.log) → (s.input = [] → input' = []) → ListenerOk grow defs input' (readBy i log') w' →
        ∀ (j : Nat) (v : Listener), (s.all.set i w')[j]? = some v → ListenerOk grow defs input' (readBy j log') v := by
      intro w' input' log' ho hin hok j v hv
      by_cases hj : j = i
      · subst hj
        rw [List.getElem?_set_self hlt, Option.some.injEq] at hv
        subst hv
        exact hok
      · rw [List.getElem?_set_ne (Ne.symm hj)] at hv
        rw [ho j hj]
        intro rest hr
        exact h2 j v hv rest fun hs => hr (hin hs)
    by_cases hcall : w.inCall = true
    · rw [if_pos hcall]
      have hw' : ∀ rest, (s.input = [] → rest = []) → ∃ r0 b0,
          callsOn grow defs w.returned.length (readBy i s.log ++ rest) ⟨[], []⟩ = .ret (w.returned, r0, b0) ∧
          readFrame grow defs r0 b0 = readFrameLoop grow defs rest w.buf := fun rest hr => by
        have := hw rest hr
        rwa [if_pos hcall] at this
      cases hin : s.input with
      | nil =>
        refine ⟨by rw [hin] at h1; exact h1, others _ _ _ (fun _ _ => rfl) (fun _ => rfl) ?_⟩
        intro rest hr
        have hr := hr rfl
        subst hr
        rw [if_neg (by simp), List.length_append]
        obtain ⟨r0, b0, k1, k2⟩ := hw' [] (fun _ => rfl)
        exact callsOn_snoc k1 (by rw [k2]; rfl)
      | cons x rs =>
        rw [hin] at h1
        have hne : ∀ rest, s.input = [] → x :: rest = [] := fun rest h => by rw [hin] at h; cases h
        cases x with
        | error e =>
          refine ⟨by simpa using h1, others _ _ _ (fun j hj => readBy_other (Ne.symm hj) _ _) (fun h => by rw [hin] at h; cases h) ?_⟩
          intro rest _
          rw [if_neg (by simp), readBy_same, List.append_assoc, List.length_append]
          obtain ⟨r0, b0, k1, k2⟩ := hw' (.error e :: rest) (hne rest)
          exact callsOn_snoc k1 (by rw [k2]; rfl)
        | ok r =>
          simp only
          cases hd : decodeRound grow defs r w.buf with
          | panic => exact ⟨h1, by rw [hin] at h2; exact h2⟩
          | ret p =>
            cases p with
            | looping b =>
              refine ⟨by simpa using h1, others _ _ _ (fun j hj => readBy_other (Ne.symm hj) _ _) (fun h => by rw [hin] at h; cases h) ?_⟩
              intro rest _
              rw [if_pos rfl, readBy_same, List.append_assoc]
              obtain ⟨r0, b0, k1, k2⟩ := hw' (.ok r :: rest) (hne rest)
              exact ⟨r0, b0, k1, by rw [k2, loop_round, hd]⟩
            | returned b x =>
              refine ⟨by simpa using h1, others _ _ _ (fun j hj => readBy_other (Ne.symm hj) _ _) (fun h => by rw [hin] at h; cases h) ?_⟩
              intro rest _
              rw [if_neg (by simp), readBy_same, List.append_assoc, List.length_append]
              obtain ⟨r0, b0, k1, k2⟩ := hw' (.ok r :: rest) (hne rest)
              exact callsOn_snoc k1 (by rw [k2, loop_round, hd])
    · rw [if_neg hcall]
      refine ⟨h1, others _ _ _ (fun _ _ => rfl) id ?_⟩
      intro rest hr
      rw [if_pos rfl]
      have := hw rest hr
      rw [if_neg hcall] at this
      exact ⟨rest, w.buf, this, rfl⟩

theorem listeners_run (grow : Growth) {defs : List ReportDef} {all : List (Except Err Report)} (schedule : List Nat) {s : Listeners}
    (h : ListenersOk grow defs all s) : ListenersOk grow defs all (s.run grow defs schedule) := by
  induction schedule generalizing s with
  | nil => exact h
  | cons i schedule ih => exact ih (listeners_step grow h i)

theorem listeners_start (grow : Growth) {defs : List ReportDef} (n : Nat) (input : List (Except Err Report)) :
    ListenersOk grow defs input (Listeners.start n input) := by
  refine ⟨rfl, fun j w hw rest _ => ?_⟩
  have : w = ⟨false, ⟨[], []⟩, []⟩ := List.eq_of_mem_replicate (List.mem_of_getElem? hw)
  subst this
  rfl

theorem callsOn_eof (grow : Growth) (defs : List ReportDef) (k : Nat) (buf : Slice) :
    ∃ b, callsOn grow defs k [] buf = .ret (List.replicate k (.error .eof), [], b) := by
  induction k generalizing buf with
  | zero => exact ⟨buf, rfl⟩
  | succ k ih =>
    obtain ⟨b, hb⟩ := ih buf.reset
    refine ⟨b, ?_⟩
    rw [callsOn]
    simp only [readFrame, readFrameLoop, hb, List.replicate_succ]
    rfl

theorem callsOn_more {grow : Growth} {defs : List ReportDef} {n : Nat} {input : List (Except Err Report)} {b0 : Slice}
    {xs : List (Except Err Bytes)} {rest : List (Except Err Report)} {buf : Slice} (h : callsOn grow defs n input b0 = .ret (xs, rest, buf))
    {k : Nat} {ys : List (Except Err Bytes)} {rest' : List (Except Err Report)} {buf' : Slice}
    (h2 : callsOn grow defs k rest buf = .ret (ys, rest', buf')) : callsOn grow defs (n + k) input b0 = .ret (xs ++ ys, rest', buf') := by
  induction n generalizing input b0 xs with
  | zero =>
    simp only [callsOn, Out.ret.injEq, Prod.mk.injEq] at h
    obtain ⟨rfl, rfl, rfl⟩ := h
    rw [Nat.zero_add]; exact h2
  | succ n ih =>
    rw [callsOn] at h
    rw [Nat.add_right_comm, callsOn]
    cases hf : readFrame grow defs input b0 with
    | panic => rw [hf] at h; cases h
    | ret y =>
      obtain ⟨r1, b1, y⟩ := y
      rw [hf] at h
      simp only at h ⊢
      cases hm : callsOn grow defs n r1 b1 with
      | panic => rw [hm] at h; cases h
      | ret z =>
        obtain ⟨more, r2, b2⟩ := z
        rw [hm] at h
        simp only [Out.ret.injEq, Prod.mk.injEq] at h
        obtain ⟨rfl, rfl, rfl⟩ := h
        rw [ih hm]
        rfl

/-- C127. Any number of transports read from one device, taking turns in any order, whatever comes from it: every report (and every
error) goes to one of them, in order, and the calls of `ReadFrame` of each have returned just what they would if what it has read had
come from a device of its own (where further calls would only give `io.EOF`). -/
theorem C127_own (grow : Growth) (defs : List ReportDef) (n : Nat) (input : List (Except Err Report)) (schedule : List Nat) :
    ((Listeners.start n input).run grow defs schedule).log.map (·.2) ++ ((Listeners.start n input).run grow defs schedule).input = input ∧
    ∀ (i : Nat) (w : Listener), ((Listeners.start n input).run grow defs schedule).all[i]? = some w → ∀ k,
      readFrames grow defs (w.returned.length + k) (readBy i ((Listeners.start n input).run grow defs schedule).log) ⟨[], []⟩ =
        .ret (w.returned ++ List.replicate k (.error .eof)) := by
  obtain ⟨h1, h2⟩ := listeners_run grow schedule (listeners_start grow (defs := defs) n input)
  refine ⟨h1, fun i w hw k => ?_⟩
  have := h2 i w hw [] (fun _ => rfl)
  rw [List.append_nil] at this
  by_cases hc : w.inCall = true
  · rw [if_pos hc] at this
    obtain ⟨r0, b0, k1, k2⟩ := this
    cases k with
    | zero => simpa using callsOn_frames k1
    | succ k =>
      obtain ⟨b, hb⟩ := callsOn_eof grow defs k w.buf
      refine callsOn_frames (callsOn_more k1 (k := k + 1) (ys := List.replicate (k + 1) (.error .eof)) (rest' := []) (buf' := b) ?_)
      rw [callsOn, k2]
      simp only [readFrameLoop, hb, List.replicate_succ]
      rfl
  · rw [if_neg hc] at this
    obtain ⟨b, hb⟩ := callsOn_eof grow defs k w.buf
    exact callsOn_frames (callsOn_more this hb)

/-! ### every distribution is possible -/

theorem listeners_call (grow : Growth) {defs : List ReportDef} {s : Listeners} {i : Nat} (hc : s.crashed = false) (hi : i < s.all.length) :
    ∃ schedule, (s.run grow defs schedule).crashed = false ∧ (s.run grow defs schedule).log = s.log ∧
      (s.run grow defs schedule).input = s.input ∧ (s.run grow defs schedule).all.length = s.all.length ∧
      ∃ w, (s.run grow defs schedule).all[i]? = some w ∧ w.inCall = true := by
  by_cases hw : s.all[i].inCall = true
  · exact ⟨[], hc, rfl, rfl, rfl, s.all[i], List.getElem?_eq_getElem hi, hw⟩
  · have e : s.run grow defs [i] = { s with all := s.all.set i ⟨true, s.all[i].buf.reset, s.all[i].returned⟩ } := by
      show s.step grow defs i = _
      rw [Listeners.step, if_neg (by simp [hc]), List.getElem?_eq_getElem hi]
      simp only
      rw [if_neg hw]
    exact ⟨[i], by rw [e]; exact hc, by rw [e], by rw [e], by rw [e]; simp, ⟨true, s.all[i].buf.reset, s.all[i].returned⟩, by
      rw [e]; exact List.getElem?_set_self hi, rfl⟩

theorem decode_no_panic (grow : Growth) {defs : List ReportDef} (h : ∀ d ∈ defs, 1 ≤ d.len) (r : Report) (buf : Slice) :
    decodeRound grow defs r buf ≠ .panic := by
  intro hd
  rw [decodeRound] at hd
  cases hf : find defs r.id.toNat with
  | none => rw [hf] at hd; cases hd
  | some d =>
    have hm : d ∈ defs := by
      obtain ⟨pre, post, e, _⟩ := find_some.1 hf
      rw [e]; simp
    have := h d hm
    rw [hf] at hd
    simp only [if_neg (show ¬ d.maxPayload < 0 by simp only [ReportDef.maxPayload]; omega)] at hd
    repeat' split at hd
    all_goals cases hd

theorem listeners_take (grow : Growth) {defs : List ReportDef} (h : ∀ d ∈ defs, 1 ≤ d.len) {s : Listeners} {i : Nat}
    {x : Except Err Report} {input : List (Except Err Report)} (hc : s.crashed = false) (hin : s.input = x :: input)
    {w : Listener} (hi : s.all[i]? = some w) (hw : w.inCall = true) :
    (s.step grow defs i).crashed = false ∧ (s.step grow defs i).log = s.log ++ [(i, x)] ∧ (s.step grow defs i).input = input ∧
      (s.step grow defs i).all.length = s.all.length := by
  rw [Listeners.step, if_neg (by simp [hc]), hi]
  simp only
  rw [if_pos hw, hin]
  cases x with
  | error e => simp [hc]
  | ok r =>
    simp only
    cases hd : decodeRound grow defs r w.buf with
    | panic => exact absurd hd (decode_no_panic grow h r w.buf)
    | ret p => cases p <;> simp [hc]

theorem listeners_reach (grow : Growth) {defs : List ReportDef} (h : ∀ d ∈ defs, 1 ≤ d.len) (log : List (Nat × Except Err Report))
    {s : Listeners} (hc : s.crashed = false) (hin : s.input = log.map (·.2)) (hi : ∀ p ∈ log, p.1 < s.all.length) :
    ∃ schedule, (s.run grow defs schedule).crashed = false ∧ (s.run grow defs schedule).log = s.log ++ log ∧
      (s.run grow defs schedule).input = [] := by
  induction log generalizing s with
  | nil => exact ⟨[], hc, by simp [Listeners.run], hin⟩
  | cons p log ih =>
    obtain ⟨sch1, a1, a2, a3, a4, w, a5, a6⟩ := listeners_call grow (defs := defs) hc (hi p (.head _))
    obtain ⟨b1, b2, b3, b4⟩ := listeners_take grow h (input := log.map (·.2)) (x := p.2) a1 (by rw [a3, hin]; rfl) a5 a6
    obtain ⟨sch2, c1, c2, c3⟩ := ih b1 b3 (fun q hq => by rw [b4, a4]; exact hi q (.tail _ hq))
    have e : s.run grow defs (sch1 ++ p.1 :: sch2) = ((s.run grow defs sch1).step grow defs p.1).run grow defs sch2 := by
      simp [Listeners.run]
    refine ⟨sch1 ++ p.1 :: sch2, ?_⟩
    rw [e]
    exact ⟨c1, by rw [c2, b2, a2]; simp, c3⟩

/-- C127, who reads what is left to chance: every distribution of the reports over the transports happens in some order of turns. -/
theorem C127_any (grow : Growth) (defs : List ReportDef) (h : ∀ d ∈ defs, 1 ≤ d.len) (n : Nat) (log : List (Nat × Except Err Report))
    (hn : ∀ p ∈ log, p.1 < n) :
    ∃ schedule, ((Listeners.start n (log.map (·.2))).run grow defs schedule).log = log ∧
      ((Listeners.start n (log.map (·.2))).run grow defs schedule).input = [] := by
  obtain ⟨sch, -, h2, h3⟩ := listeners_reach grow h log (s := Listeners.start n (log.map (·.2))) rfl rfl (by simpa [Listeners.start] using hn)
  exact ⟨sch, by simpa [Listeners.start] using h2, h3⟩

/-! ### which frames arrive whole -/

theorem oks_then_eofs {fs : List Bytes} {xs : List (Except Err Bytes)}
    (h : xs ++ List.replicate fs.length (.error .eof) = fs.map .ok ++ List.replicate xs.length (.error .eof)) :
    ∃ k, xs = fs.map .ok ++ List.replicate k (.error .eof) := by
  induction fs generalizing xs with
  | nil => exact ⟨xs.length, by simpa using h⟩
  | cons f fs ih =>
    cases xs with
    | nil => simp [List.replicate_succ] at h
    | cons x xs =>
      simp only [List.length_cons, List.cons_append, List.map_cons, List.cons.injEq] at h
      obtain ⟨rfl, h⟩ := h
      have h' : xs ++ List.replicate fs.length (.error .eof) = fs.map .ok ++ List.replicate xs.length (.error .eof) := by
        have h2 : (xs ++ List.replicate fs.length (.error .eof)) ++ [.error .eof] =
            (fs.map .ok ++ List.replicate xs.length (.error .eof)) ++ [.error .eof] := by
          rw [List.append_assoc, List.append_assoc, ← List.replicate_succ', ← List.replicate_succ']
          exact h
        exact List.append_cancel_right h2
      obtain ⟨k, hk⟩ := ih h'
      exact ⟨k, by rw [hk]; rfl⟩

theorem readFrames_first {grow : Growth} {defs : List ReportDef} {a b : Nat} {input : List (Except Err Report)} {buf : Slice}
    {xs : List (Except Err Bytes)} (h : readFrames grow defs (a + b) input buf = .ret xs) : readFrames grow defs a input buf = .ret (xs.take a) := by
  induction a generalizing input buf xs with
  | zero => rfl
  | succ a ih =>
    rw [Nat.add_right_comm, readFrames] at h
    rw [readFrames]
    cases hf : readFrame grow defs input buf with
    | panic => rw [hf] at h; cases h
    | ret y =>
      obtain ⟨r1, b1, y⟩ := y
      rw [hf] at h
      simp only at h ⊢
      cases hm : readFrames grow defs (a + b) r1 b1 with
      | panic => rw [hm] at h; cases h
      | ret more =>
        rw [hm, Out.bind_ret, Out.ret.injEq] at h
        rw [ih hm, Out.bind_ret, ← h]
        rfl

theorem readBy_map {α β : Type} (g : α → β) (i : Nat) (l : List (Nat × α)) :
    readBy i (l.map fun p => (p.1, g p.2)) = (readBy i l).map g := by
  induction l with
  | nil => rfl
  | cons p l ih =>
    have e : ∀ {γ : Type} (q : Nat × γ) (m : List (Nat × γ)), readBy i (q :: m) = readBy i [q] ++ readBy i m := fun q m =>
      readBy_append i [q] m
    rw [List.map_cons, e, e p, ih, List.map_append]
    congr 1
    by_cases hp : p.1 = i <;> simp [readBy, hp]

theorem readBy_arrived (i : Nat) (sent : List (Bytes × List (Nat × Report))) :
    readBy i (sent.flatMap fun p => p.2.map fun q => (q.1, Except.ok q.2)) = arrived (sent.map (partFor i)) := by
  induction sent with
  | nil => rfl
  | cons p sent ih =>
    rw [List.flatMap_cons, readBy_append, ih, readBy_map]
    rfl

/-- C127, which frames arrive whole. Frames have been sent, the transports have read all reports (`sent` names who has read which), and
each has gone on: a transport returns the frames of which it has read all reports, and nothing else, just if it has read no last report
of a frame without all the others. -/
theorem C127_whole_iff (grow : Growth) (defs : List ReportDef) (hg : GoodTable defs) (n : Nat) (sent : List (Bytes × List (Nat × Report)))
    (h : ∀ p ∈ sent, p.1 ≠ [] ∧ Written defs p.1 (p.2.map (·.2))) (schedule : List Nat)
    (hs : ((Listeners.start n (sent.flatMap fun p => p.2.map fun q => .ok q.2)).run grow defs schedule).log =
      sent.flatMap fun p => p.2.map fun q => (q.1, .ok q.2)) (i : Nat) (w : Listener)
    (hw : ((Listeners.start n (sent.flatMap fun p => p.2.map fun q => .ok q.2)).run grow defs schedule).all[i]? = some w) :
    (∃ fs k, Intact (sent.map (partFor i)) fs ∧ w.returned = fs.map .ok ++ List.replicate k (.error .eof)) ↔
      ∀ p ∈ sent, (partFor i p).Complete ∨ (partFor i p).EndLost := by
  have ho := (C127_own grow defs n _ schedule).2 i w hw
  rw [hs, readBy_arrived] at ho
  have hsent : ∀ t ∈ sent.map (partFor i), Sent defs t := by
    intro t ht
    obtain ⟨p, hp, rfl⟩ := List.mem_map.1 ht
    exact ⟨(h p hp).1, (h p hp).2, (List.filter_sublist).map _⟩
  have hex := C94_exact_iff grow defs hg (sent.map (partFor i)) hsent ⟨[], []⟩
  rw [List.forall_mem_map] at hex
  rw [← hex]
  constructor
  · rintro ⟨fs, k, k1, k2⟩
    refine ⟨fs, k1, fun m => ?_⟩
    have := ho m
    rw [k2, List.append_assoc, List.replicate_append_replicate, List.length_append, List.length_map, List.length_replicate,
      show fs.length + k + m = (fs.length + m) + k by omega] at this
    rw [readFrames_first this, List.take_append, List.length_map, List.take_of_length_le (by simp), List.take_replicate]
    congr 3
    omega
  · rintro ⟨fs, k1, k2⟩
    have e1 := ho fs.length
    have e2 := k2 w.returned.length
    rw [Nat.add_comm, e2, Out.ret.injEq] at e1
    obtain ⟨k, hk⟩ := oks_then_eofs e1.symm
    exact ⟨fs, k, k1, hk⟩

/-- C127, frames that fit into one report each: each is returned once, by the transport that has read it, in order and whole. -/
theorem C127_single (grow : Growth) (defs : List ReportDef) (hg : GoodTable defs) (n : Nat) (sent : List (Bytes × Nat × Report))
    (h : ∀ p ∈ sent, p.1 ≠ [] ∧ Written defs p.1 [p.2.2]) (schedule : List Nat)
    (hs : ((Listeners.start n (sent.map fun p => .ok p.2.2)).run grow defs schedule).log = sent.map fun p => (p.2.1, .ok p.2.2))
    (i : Nat) (w : Listener) (hw : ((Listeners.start n (sent.map fun p => .ok p.2.2)).run grow defs schedule).all[i]? = some w) :
    ∃ fs k, EachPadded ((sent.filter (·.2.1 = i)).map (·.1)) fs ∧ w.returned = fs.map .ok ++ List.replicate k (.error .eof) := by
  have e1 : ((sent.map fun p => (p.1, [p.2])).flatMap fun p : Bytes × List (Nat × Report) => p.2.map fun q => (.ok q.2 : Except Err Report)) =
      sent.map fun p => .ok p.2.2 := by
    clear hs hw h
    induction sent with
    | nil => rfl
    | cons p sent ih => simp_all
  have e2 : ((sent.map fun p => (p.1, [p.2])).flatMap fun p : Bytes × List (Nat × Report) => p.2.map fun q =>
      (q.1, (.ok q.2 : Except Err Report))) = sent.map fun p => (p.2.1, .ok p.2.2) := by
    clear hs hw e1 h
    induction sent with
    | nil => rfl
    | cons p sent ih => simp_all
  obtain ⟨fs, k, k1, k2⟩ := (C127_whole_iff grow defs hg n (sent.map fun p => (p.1, [p.2])) (by
      intro p hp
      obtain ⟨q, hq, rfl⟩ := List.mem_map.1 hp
      exact h q hq) schedule
    (by rw [e1, e2]; exact hs) i w (by rw [e1]; exact hw)).2 (by
      intro p hp
      obtain ⟨q, -, rfl⟩ := List.mem_map.1 hp
      by_cases hq : q.2.1 = i
      · exact .inl (by simp [Transfer.Complete, partFor, readBy, hq])
      · exact .inr (by simp [Transfer.EndLost, partFor, readBy, hq]))
  refine ⟨fs, k, ?_, k2⟩
  clear k2 hs hw e1 e2
  induction sent generalizing fs with
  | nil => cases k1; exact .nil
  | cons p sent ih =>
    have ih := fun fs => ih (fun p hp => h p (.tail _ hp)) fs
    have hne : ([] : List Report) ≠ [p.2.2] := by simp
    by_cases hq : p.2.1 = i
    · cases k1 with
      | whole _ hz hr =>
        rw [List.filter_cons_of_pos (by simpa using hq)]
        exact .cons hz (ih _ hr)
      | lost hn _ => exact absurd (by simp [Transfer.Complete, partFor, readBy, hq]) hn
    · cases k1 with
      | whole hc _ _ => simp [Transfer.Complete, partFor, readBy, hq] at hc
      | lost _ hr =>
        rw [List.filter_cons_of_neg (by simpa using hq)]
        exact ih _ hr

/-- Two transports; one reads the first report of a frame, the other the second: the frame is lost, and the second gets its end. -/
example : ((Listeners.start 2 [.ok ⟨1, 2, [1, 2]⟩, .ok ⟨1, 1, [3, 0]⟩]).run (fun _ n => 2 * n) [⟨1, 3, .accIn⟩] [0, 1, 0, 1, 0, 1]).all.map
    (·.returned) = [[.error .eof], [.ok [3, 0]]] := rfl

/-- `C127_own` with a read that fails. -/
example (grow : Growth) (schedule : List Nat) (w : Listener)
    (hw : ((Listeners.start 2 [.ok ⟨1, 2, [1, 2]⟩, .error (.other 3), .ok ⟨1, 1, [3, 0]⟩]).run grow [⟨1, 3, .accIn⟩] schedule).all[1]? = some w) :
    ∀ k, readFrames grow [⟨1, 3, .accIn⟩] (w.returned.length + k) (readBy 1 ((Listeners.start 2 [.ok ⟨1, 2, [1, 2]⟩, .error (.other 3),
      .ok ⟨1, 1, [3, 0]⟩]).run grow [⟨1, 3, .accIn⟩] schedule).log) ⟨[], []⟩ = .ret (w.returned ++ List.replicate k (.error .eof)) :=
  (C127_own grow [⟨1, 3, .accIn⟩] 2 _ schedule).2 1 w hw

/-- `C127_any`: the first transport reads the middle one of three reports. -/
example (grow : Growth) : ∃ schedule, ((Listeners.start 2 [.ok ⟨1, 0, [1, 2]⟩, .ok ⟨1, 0, [3, 0]⟩, .ok ⟨1, 0, [4, 0]⟩]).run grow
      [⟨1, 3, .accIn⟩] schedule).log = [(1, .ok ⟨1, 0, [1, 2]⟩), (0, .ok ⟨1, 0, [3, 0]⟩), (1, .ok ⟨1, 0, [4, 0]⟩)] ∧
    ((Listeners.start 2 [.ok ⟨1, 0, [1, 2]⟩, .ok ⟨1, 0, [3, 0]⟩, .ok ⟨1, 0, [4, 0]⟩]).run grow [⟨1, 3, .accIn⟩] schedule).input = [] :=
  C127_any grow [⟨1, 3, .accIn⟩] (by decide) 2 [(1, .ok ⟨1, 0, [1, 2]⟩), (0, .ok ⟨1, 0, [3, 0]⟩), (1, .ok ⟨1, 0, [4, 0]⟩)] (by simp)

/-- `C127_whole_iff`: the first transport reads a frame of two reports, the second one of one report. -/
example : ∃ fs k, Intact [⟨[1, 2, 3], [⟨1, 2, [1, 2]⟩, ⟨1, 1, [3, 0]⟩], [⟨1, 2, [1, 2]⟩, ⟨1, 1, [3, 0]⟩]⟩, ⟨[4], [⟨1, 0, [4, 0]⟩], []⟩] fs ∧
    ([.ok [1, 2, 3, 0]] : List (Except Err Bytes)) = fs.map .ok ++ List.replicate k (.error .eof) :=
  (C127_whole_iff (fun _ n => 2 * n) [⟨1, 3, .accIn⟩] ⟨by decide, by decide, by decide, by decide⟩ 2
    [([1, 2, 3], [(0, ⟨1, 2, [1, 2]⟩), (0, ⟨1, 1, [3, 0]⟩)]), ([4], [(1, ⟨1, 0, [4, 0]⟩)])] (by
      intro p hp
      simp only [List.mem_cons, List.not_mem_nil, or_false] at hp
      rcases hp with rfl | rfl
      · exact ⟨by simp, twoReports⟩
      · exact ⟨by simp, 4, rfl⟩) [0, 1, 0, 0, 1] rfl 0 ⟨false, _, [.ok [1, 2, 3, 0]]⟩ rfl).2 (by
      intro p hp
      simp only [List.mem_cons, List.not_mem_nil, or_false] at hp
      rcases hp with rfl | rfl
      · exact .inl rfl
      · exact .inr (by simp [Transfer.EndLost, partFor, readBy]))

/-- `C127_single`: two frames, one for each transport. -/
example : ∃ fs k, EachPadded [[5, 6]] fs ∧ ([.ok [5, 6]] : List (Except Err Bytes)) = fs.map .ok ++ List.replicate k (.error .eof) :=
  C127_single (fun _ n => 2 * n) [⟨1, 3, .accIn⟩] ⟨by decide, by decide, by decide, by decide⟩ 2
    [([4], 1, ⟨1, 0, [4, 0]⟩), ([5, 6], 0, ⟨1, 0, [5, 6]⟩)] (by
      intro p hp
      simp only [List.mem_cons, List.not_mem_nil, or_false] at hp
      rcases hp with rfl | rfl <;> exact ⟨by simp, 4, rfl⟩) [0, 1, 1, 0] rfl 0 ⟨false, _, [.ok [5, 6]]⟩ rfl

end Props
