import Verif.Spec.Racers
import Verif.Props.ReadersLock

/-! # Property C126, statement by statement -/

namespace Props
open Go Spec Ipod Ipod.Hid

/-- What a call returns that is at `p`, if it is not disturbed. -/
def resume (grow : Growth) (defs : List ReportDef) (input : List (Except Err Report)) (buf : Slice) :
    Place → Out (List (Except Err Report) × Slice × Except Err Slice)
  | .out => readFrame grow defs input buf
  | .entered => readFrame grow defs input buf
  | .top => readFrameLoop grow defs input buf
  | .got lc data =>
    if lc = linkControlDone then .ret (input, buf.reset.write grow data, .ok (buf.reset.write grow data))
    else if lc = linkControlMoreToFollow then readFrameLoop grow defs input (buf.reset.write grow data)
    else if lc = linkControlContinue ||| linkControlMoreToFollow then readFrameLoop grow defs input (buf.write grow data)
    else if lc = linkControlContinue then .ret (input, buf.write grow data, .ok (buf.write grow data))
    else readFrameLoop grow defs input buf
  | .emptied lc data =>
    if lc = linkControlDone then .ret (input, buf.write grow data, .ok (buf.write grow data))
    else readFrameLoop grow defs input (buf.write grow data)
  | .leaving => .ret (input, buf, .ok buf)

/-- The calls that have ended returned what they do alone, and so will a call that is alone. -/
def RacersAt (grow : Growth) (defs : List ReportDef) (input : List (Except Err Report)) (s : Racers) : Prop :=
  ∃ r0 b0, callsOn grow defs s.returned.length input ⟨[], []⟩ = .ret (s.returned.map (·.2), r0, b0) ∧
    ∀ i p, s.all[i]? = some p → (∀ (j : Nat) (q : Place), j ≠ i → s.all[j]? = some q → q = .out) →
      readFrame grow defs r0 b0 = resume grow defs s.input s.buf p ∧ (p = .out → r0 = s.input ∧ b0 = s.buf)

theorem racers_moved (grow : Growth) {defs : List ReportDef} {input : List (Except Err Report)} {s : Racers} {i : Nat} {p : Place}
    (hi : s.all[i]? = some p) (ho : ∀ (j : Nat) (q : Place), j ≠ i → s.all[j]? = some q → q = .out) (p' : Place) (buf' : Slice)
    (input' : List (Except Err Report)) (returned' : List (Nat × Except Err Bytes)) (c : Bool) (r0 : List (Except Err Report)) (b0 : Slice)
    (h1 : callsOn grow defs returned'.length input ⟨[], []⟩ = .ret (returned'.map (·.2), r0, b0))
    (h2 : readFrame grow defs r0 b0 = resume grow defs input' buf' p') (h3 : p' = .out → r0 = input' ∧ b0 = buf') :
    RacersAt grow defs input ⟨s.all.set i p', buf', input', returned', c⟩ := by
  have hlt : i < s.all.length := (List.getElem?_eq_some_iff.1 hi).1
  refine ⟨r0, b0, h1, fun j q hj hq => ?_⟩
  by_cases hji : j = i
  · subst hji
    simp only at hj
    rw [List.getElem?_set_self hlt, Option.some.injEq] at hj
    subst hj
    exact ⟨h2, h3⟩
  · simp only at hj hq
    have hout := hq i p' (Ne.symm hji) (List.getElem?_set_self hlt)
    rw [List.getElem?_set_ne (Ne.symm hji)] at hj
    have hqo := ho j q hji hj
    obtain ⟨rfl, rfl⟩ := h3 hout
    subst hqo
    exact ⟨rfl, fun _ => ⟨rfl, rfl⟩⟩

theorem racers_step (grow : Growth) {defs : List ReportDef} {input : List (Except Err Report)} {s : Racers} (h : RacersAt grow defs input s)
    (i : Nat) (ho : ∀ (j : Nat) (q : Place), j ≠ i → s.all[j]? = some q → q = .out) : RacersAt grow defs input (s.step grow defs i) := by
  rw [Racers.step]
  by_cases hc : s.crashed = true
  · rw [if_pos hc]; exact h
  rw [if_neg hc]
  cases hi : s.all[i]? with
  | none => exact h
  | some p =>
    have h0 := h
    obtain ⟨r0, b0, h1, h2⟩ := h
    obtain ⟨h3, h4⟩ := h2 i p hi ho
    -- the call ends
    have ends : ∀ (input' : List (Except Err Report)) (buf' : Slice) (x : Except Err Slice),
        resume grow defs s.input s.buf p = .ret (input', buf', x) →
        RacersAt grow defs input ⟨s.all.set i .out, buf', input', s.returned ++ [(i, x.map (·.data))], s.crashed⟩ := by
      intro input' buf' x hx
      refine racers_moved grow hi ho _ _ _ _ _ input' buf' ?_ rfl (fun _ => ⟨rfl, rfl⟩)
      have := callsOn_snoc h1 (by rw [h3]; exact hx)
      simpa using this
    -- or goes on
    have goes : ∀ (p' : Place) (buf' : Slice) (input' : List (Except Err Report)), p' ≠ .out →
        resume grow defs s.input s.buf p = resume grow defs input' buf' p' →
        RacersAt grow defs input ⟨s.all.set i p', buf', input', s.returned, s.crashed⟩ := by
      intro p' buf' input' hp hx
      exact racers_moved grow hi ho _ _ _ _ _ r0 b0 h1 (by rw [h3, hx]) fun hp' => absurd hp' hp
    cases p with
    | out => exact goes .entered _ _ (by simp) rfl
    | entered => exact goes .top _ _ (by simp) rfl
    | top =>
      simp only
      cases hin : s.input with
      | nil => exact ends [] s.buf (.error .eof) (by rw [hin]; rfl)
      | cons x rs =>
        cases x with
        | error e => exact ends rs s.buf (.error e) (by rw [hin]; rfl)
        | ok r =>
          simp only
          cases hf : find defs r.id.toNat with
          | none => exact ends rs s.buf (.error Err.noReport) (by rw [hin, resume, readFrameLoop, hf])
          | some d =>
            simp only
            by_cases hd : d.maxPayload < 0
            · rw [if_pos hd]
              obtain ⟨a, b, k1, k2⟩ := h0
              rw [hin] at k2
              exact ⟨a, b, k1, k2⟩
            · rw [if_neg hd]
              refine goes _ _ _ (by simp) ?_
              rw [hin, resume, readFrameLoop, hf]
              simp only [if_neg hd]
              rfl
    | got lc data =>
      simp only
      by_cases l0 : lc = linkControlDone
      · rw [if_pos l0]
        exact goes (.emptied lc data) _ _ (by simp) (by subst l0; rfl)
      rw [if_neg l0]
      by_cases l1 : lc = linkControlMoreToFollow
      · rw [if_pos l1]
        exact goes (.emptied lc data) _ _ (by simp) (by subst l1; rfl)
      rw [if_neg l1]
      by_cases l2 : lc = linkControlContinue ||| linkControlMoreToFollow
      · rw [if_pos l2]
        exact goes .top _ _ (by simp) (by subst l2; rfl)
      rw [if_neg l2]
      by_cases l3 : lc = linkControlContinue
      · rw [if_pos l3]
        exact goes .leaving _ _ (by simp) (by subst l3; rfl)
      rw [if_neg l3]
      refine goes .top _ _ (by simp) ?_
      simp only [resume, if_neg l0, if_neg l1, if_neg l2, if_neg l3]
    | emptied lc data =>
      simp only
      by_cases l0 : lc = linkControlDone
      · rw [if_pos l0]
        exact goes .leaving _ _ (by simp) (by simp only [resume, if_pos l0])
      · rw [if_neg l0]
        exact goes .top _ _ (by simp) (by simp only [resume, if_neg l0])
    | leaving => exact ends s.input s.buf (.ok s.buf) rfl

theorem racers_run (grow : Growth) {defs : List ReportDef} {input : List (Except Err Report)} (schedule : List Nat) {s : Racers}
    (h : RacersAt grow defs input s) (he : Excluding grow defs s schedule) : RacersAt grow defs input (s.run grow defs schedule) := by
  induction schedule generalizing s with
  | nil => exact h
  | cons i schedule ih => exact ih (racers_step grow h i he.1) he.2

/-- C126, statement by statement: with a lock held during each call, whatever comes from the device and whatever the table, the calls of
all goroutines together return, in order, what those of one goroutine alone would. -/
theorem C126_exclusion (grow : Growth) (defs : List ReportDef) (n : Nat) (input : List (Except Err Report)) (schedule : List Nat)
    (he : Excluding grow defs (Racers.start n input) schedule) :
    readFrames grow defs ((Racers.start n input).run grow defs schedule).returned.length input ⟨[], []⟩ =
      .ret (((Racers.start n input).run grow defs schedule).returned.map (·.2)) := by
  have h : RacersAt grow defs input (Racers.start n input) := by
    refine ⟨input, ⟨[], []⟩, rfl, fun i p hi _ => ?_⟩
    have : p = .out := List.eq_of_mem_replicate (List.mem_of_getElem? hi)
    subst this
    exact ⟨rfl, fun _ => ⟨rfl, rfl⟩⟩
  obtain ⟨r0, b0, h1, -⟩ := racers_run grow schedule h he
  exact callsOn_frames h1

/-- One step of a goroutine that reads a report all of whose data counts. -/
theorem racers_read (grow : Growth) {defs : List ReportDef} {r : Report} (h : Accepted defs r r.data) (all : List Place) (buf : Slice)
    (rs : List (Except Err Report)) (i : Nat) (hi : all[i]? = some .top) :
    Racers.step grow defs ⟨all, buf, .ok r :: rs, [], false⟩ i = ⟨all.set i (.got r.linkControl r.data), buf, rs, [], false⟩ := by
  obtain ⟨d, h1, h2, h3⟩ := accepted_iff.1 h
  have ht : r.data.take (min r.data.length d.maxPayload.toNat) = r.data := by
    rw [Nat.min_comm, ← List.take_take, List.take_length, ← h3]
  rw [Racers.step, if_neg (by simp)]
  simp only [hi, h1, if_neg (show ¬ d.maxPayload < 0 by omega), ht]

/-- C126, without a lock, statement by statement: of any two frames of one report each, sent one after the other, two goroutines may get,
both, the second glued to the first. -/
theorem C126_glued (grow : Growth) (defs : List ReportDef) (hg : GoodTable defs) (f g : Bytes) (hf : f ≠ []) (hg' : g ≠ []) (r q : Report)
    (hr : Written defs f [r]) (hq : Written defs g [q]) :
    ∃ schedule, ((Racers.start 2 [.ok r, .ok q]).run grow defs schedule).returned =
      [(0, .ok (r.data ++ q.data)), (1, .ok (r.data ++ q.data))] := by
  have pr := written_proper hg hf hr
  have pq := written_proper hg hg' hq
  have lr : r.linkControl = 0x00 := by simpa using link_at pr.2 (pre := []) (r := r) (post := []) rfl
  have lq : q.linkControl = 0x00 := by simpa using link_at pq.2 (pre := []) (r := q) (post := []) rfl
  have e1 : (Racers.start 2 [.ok r, .ok q]).run grow defs [0, 1, 0, 1, 0, 1] =
      ⟨[.got 0x00 r.data, .got 0x00 q.data], ⟨[], []⟩, [], [], false⟩ := by
    have : (Racers.start 2 [.ok r, .ok q]).run grow defs [0, 1, 0, 1, 0, 1] =
        ((⟨[.top, .top], ⟨[], []⟩, [.ok r, .ok q], [], false⟩ : Racers).step grow defs 0).step grow defs 1 := rfl
    rw [this, racers_read grow (pr.1 r (.head _)) _ _ _ 0 rfl, racers_read grow (pq.1 q (.head _)) _ _ _ 1 rfl, lr, lq]
    rfl
  refine ⟨[0, 1, 0, 1, 0, 1] ++ [0, 1, 0, 1, 0, 1], ?_⟩
  rw [Racers.run, List.foldl_append]
  show (Racers.run grow defs ((Racers.start 2 [.ok r, .ok q]).run grow defs [0, 1, 0, 1, 0, 1]) [0, 1, 0, 1, 0, 1]).returned = _
  rw [e1]
  have e2 : (Racers.run grow defs ⟨[.got 0x00 r.data, .got 0x00 q.data], ⟨[], []⟩, [], [], false⟩ [0, 1, 0, 1, 0, 1]).returned =
      [(0, .ok (((Slice.write grow ⟨[], []⟩ r.data).write grow q.data).data)),
        (1, .ok (((Slice.write grow ⟨[], []⟩ r.data).write grow q.data).data))] := rfl
  rw [e2]
  simp

/-- Two goroutines that exclude each other, two frames; the second is still in its call at the end. -/
example : readFrames (fun _ n => 2 * n) [⟨1, 3, .accIn⟩]
      ((Racers.start 2 [.ok ⟨1, 0, [1, 2]⟩, .ok ⟨1, 0, [3, 0]⟩]).run (fun _ n => 2 * n) [⟨1, 3, .accIn⟩] [1, 1, 1, 1, 1, 1, 0, 0, 0]).returned.length
      [.ok ⟨1, 0, [1, 2]⟩, .ok ⟨1, 0, [3, 0]⟩] ⟨[], []⟩ =
    .ret (((Racers.start 2 [.ok ⟨1, 0, [1, 2]⟩, .ok ⟨1, 0, [3, 0]⟩]).run (fun _ n => 2 * n) [⟨1, 3, .accIn⟩]
      [1, 1, 1, 1, 1, 1, 0, 0, 0]).returned.map (·.2)) :=
  C126_exclusion (fun _ n => 2 * n) [⟨1, 3, .accIn⟩] 2 [.ok ⟨1, 0, [1, 2]⟩, .ok ⟨1, 0, [3, 0]⟩] [1, 1, 1, 1, 1, 1, 0, 0, 0] (by
    have h1 : ∀ (s : Racers) (x : Place), s.all = [.out, x] → ∀ (j : Nat) (p : Place), j ≠ 1 → s.all[j]? = some p → p = .out := by
      intro s x hs j p hj h
      rw [hs] at h
      match j, hj, h with
      | 0, _, h => exact (Option.some.inj h).symm
      | _ + 2, _, h => simp at h
    have h0 : ∀ (s : Racers) (x : Place), s.all = [x, .out] → ∀ (j : Nat) (p : Place), j ≠ 0 → s.all[j]? = some p → p = .out := by
      intro s x hs j p hj h
      rw [hs] at h
      match j, hj, h with
      | 1, _, h => exact (Option.some.inj h).symm
      | _ + 2, _, h => simp at h
    exact ⟨h1 _ .out rfl, h1 _ .entered rfl, h1 _ .top rfl, h1 _ (.got 0 [1, 2]) rfl, h1 _ (.emptied 0 [1, 2]) rfl, h1 _ .leaving rfl,
      h0 _ .out rfl, h0 _ .entered rfl, h0 _ .top rfl, trivial⟩)

/-- What they have returned by then. -/
example :
    ((Racers.start 2 [.ok ⟨1, 0, [1, 2]⟩, .ok ⟨1, 0, [3, 0]⟩]).run (fun _ n => 2 * n) [⟨1, 3, .accIn⟩] [1, 1, 1, 1, 1, 1, 0, 0, 0]).returned =
      [(1, .ok [1, 2])] := rfl

/-- `C126_glued` for two frames. -/
example (grow : Growth) : ∃ schedule, ((Racers.start 2 [.ok ⟨1, 0, [1, 2]⟩, .ok ⟨1, 0, [3, 0]⟩]).run grow [⟨1, 3, .accIn⟩] schedule).returned =
    [(0, .ok [1, 2, 3, 0]), (1, .ok [1, 2, 3, 0])] :=
  C126_glued grow [⟨1, 3, .accIn⟩] ⟨by decide, by decide, by decide, by decide⟩ [1, 2] [3] (by simp) (by simp) _ _ ⟨4, rfl⟩ ⟨4, rfl⟩

end Props
