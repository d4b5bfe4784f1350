import Verif.Props.RacersFiner

/-! # Property C126: nothing is invented, whatever the schedule -/

namespace Props
open Go Spec Ipod Ipod.Hid

/-- The data a goroutine has read and not yet put into the buffer. -/
def inHand : Place → Option Bytes
  | .got _ data => some data
  | .emptied _ data => some data
  | _ => none

theorem inHand_set {l : List Place} {i : Nat} {p : Place} (h : l[i]? = some p) (q : Place) :
    ∃ m, (l.filterMap inHand).Perm ((inHand p).toList ++ m) ∧ ((l.set i q).filterMap inHand).Perm ((inHand q).toList ++ m) := by
  induction l generalizing i with
  | nil => simp at h
  | cons x l ih =>
    cases i with
    | zero =>
      simp only [List.getElem?_cons_zero, Option.some.injEq] at h
      subst h
      refine ⟨l.filterMap inHand, ?_, ?_⟩
      · rw [List.filterMap_cons]; cases inHand x <;> simp
      · rw [List.set_cons_zero, List.filterMap_cons]; cases inHand q <;> simp
    | succ i =>
      rw [List.getElem?_cons_succ] at h
      obtain ⟨m, h1, h2⟩ := ih h
      refine ⟨(inHand x).toList ++ m, ?_, ?_⟩
      · rw [List.filterMap_cons]
        cases inHand x with
        | none => simpa using h1
        | some b => exact (h1.cons b).trans (by simpa using List.perm_middle.symm)
      · rw [List.set_cons_succ, List.filterMap_cons]
        cases inHand x with
        | none => simpa using h2
        | some b => exact (h2.cons b).trans (by simpa using List.perm_middle.symm)

/-- The reports of `parts` are among those that came, each as often at most. -/
def Among (input : List (Except Err Report)) (parts : List (Report × Bytes)) : Prop :=
  ∃ rest, input.Perm (parts.map (fun p => .ok p.1) ++ rest)

/-- `f` is data of reports that came, no report more than once. -/
def MadeOf (defs : List ReportDef) (input : List (Except Err Report)) (f : Bytes) : Prop :=
  ∃ parts : List (Report × Bytes), (∀ p ∈ parts, Accepted defs p.1 p.2) ∧ Among input parts ∧ f = (parts.map (·.2)).flatten

structure RacersMade (defs : List ReportDef) (input : List (Except Err Report)) (s : Racers) : Prop where
  state : ∃ inBuf held : List (Report × Bytes), ∃ gone : List (Except Err Report),
    (∀ p ∈ inBuf, Accepted defs p.1 p.2) ∧ (∀ p ∈ held, Accepted defs p.1 p.2) ∧
    input.Perm (inBuf.map (fun p => .ok p.1) ++ (held.map (fun p => .ok p.1) ++ (gone ++ s.input))) ∧
    (held.map (·.2)).Perm (s.all.filterMap inHand) ∧ s.buf.data = (inBuf.map (·.2)).flatten
  returned : ∀ p ∈ s.returned, ∀ f, p.2 = .ok f → MadeOf defs input f

theorem held_split {held : List (Report × Bytes)} {b : Bytes} {m : List Bytes} (h : (held.map (·.2)).Perm (b :: m)) :
    ∃ z rest, held.Perm (z :: rest) ∧ z.2 = b ∧ (rest.map (·.2)).Perm m := by
  have : b ∈ held.map (·.2) := h.mem_iff.2 (.head _)
  obtain ⟨z, hz, rfl⟩ := List.mem_map.1 this
  obtain ⟨a, c, rfl⟩ := List.append_of_mem hz
  have hp : (a ++ z :: c).Perm (z :: (a ++ c)) := List.perm_middle
  refine ⟨z, a ++ c, hp, rfl, ?_⟩
  have h1 : ((z :: (a ++ c)).map (·.2)).Perm (z.2 :: m) := (hp.map _).symm.trans h
  exact List.Perm.cons_inv h1

/-- A goroutine changes its place with the same in hand. -/
theorem made_keep {defs : List ReportDef} {input : List (Except Err Report)} {s : Racers} (h : RacersMade defs input s) {i : Nat} {p : Place}
    (hi : s.all[i]? = some p) (q : Place) (hq : inHand q = inHand p) (c : Bool) :
    RacersMade defs input ⟨s.all.set i q, s.buf, s.input, s.returned, c⟩ := by
  obtain ⟨⟨b, hd, g, k1, k2, k3, k4, k5⟩, h2⟩ := h
  obtain ⟨m, m1, m2⟩ := inHand_set hi q
  refine ⟨⟨b, hd, g, k1, k2, k3, k4.trans (m1.trans ?_), k5⟩, h2⟩
  rw [hq] at m2
  exact m2.symm

/-- The buffer is emptied. -/
theorem made_reset {defs : List ReportDef} {input : List (Except Err Report)} {s : Racers} (h : RacersMade defs input s) :
    RacersMade defs input { s with buf := s.buf.reset } := by
  obtain ⟨⟨b, hd, g, k1, k2, k3, k4, k5⟩, h2⟩ := h
  refine ⟨⟨[], hd, b.map (fun p => .ok p.1) ++ g, by simp, k2, k3.trans ?_, k4, by simp⟩, h2⟩
  rw [List.map_nil, List.nil_append, List.append_assoc, ← List.append_assoc]
  refine (List.perm_append_comm.append_right _).trans ?_
  rw [List.append_assoc]

/-- What is in hand is put into the buffer. -/
theorem made_write (grow : Growth) {defs : List ReportDef} {input : List (Except Err Report)} {s : Racers} (h : RacersMade defs input s) {i : Nat}
    {p : Place} {data : Bytes} (hi : s.all[i]? = some p) (hp : inHand p = some data) (q : Place) (hq : inHand q = none) (c : Bool) :
    RacersMade defs input ⟨s.all.set i q, s.buf.write grow data, s.input, s.returned, c⟩ := by
  obtain ⟨⟨b, hd, g, k1, k2, k3, k4, k5⟩, h2⟩ := h
  obtain ⟨m, m1, m2⟩ := inHand_set hi q
  rw [hp] at m1
  rw [hq] at m2
  obtain ⟨z, hd', e1, rfl, e3⟩ := held_split (k4.trans m1)
  refine ⟨⟨b ++ [z], hd', g, ?_, fun p hp => k2 p (e1.mem_iff.2 (.tail _ hp)), k3.trans ?_, e3.trans m2.symm, ?_⟩, h2⟩
  · intro p hp
    rcases List.mem_append.1 hp with hp | hp
    · exact k1 p hp
    · rw [List.mem_singleton.1 hp]
      exact k2 z (e1.mem_iff.2 (.head _))
  · rw [List.map_append, List.append_assoc]
    refine List.Perm.append_left _ ?_
    exact (e1.map _).append_right _
  · simp [k5]

/-- What is in hand is dropped. -/
theorem made_drop {defs : List ReportDef} {input : List (Except Err Report)} {s : Racers} (h : RacersMade defs input s) {i : Nat}
    {p : Place} {data : Bytes} (hi : s.all[i]? = some p) (hp : inHand p = some data) (q : Place) (hq : inHand q = none) (c : Bool) :
    RacersMade defs input ⟨s.all.set i q, s.buf, s.input, s.returned, c⟩ := by
  obtain ⟨⟨b, hd, g, k1, k2, k3, k4, k5⟩, h2⟩ := h
  obtain ⟨m, m1, m2⟩ := inHand_set hi q
  rw [hp] at m1
  rw [hq] at m2
  obtain ⟨z, hd', e1, rfl, e3⟩ := held_split (k4.trans m1)
  refine ⟨⟨b, hd', .ok z.1 :: g, k1, fun p hp => k2 p (e1.mem_iff.2 (.tail _ hp)), k3.trans ?_, e3.trans m2.symm, k5⟩, h2⟩
  refine List.Perm.append_left _ ?_
  exact ((e1.map _).append_right _).trans (by simpa using List.perm_middle.symm)

/-- The next result of `ReadReport` is not used. -/
theorem made_skip {defs : List ReportDef} {input : List (Except Err Report)} {s : Racers} (h : RacersMade defs input s) {x : Except Err Report}
    {rs : List (Except Err Report)} (hin : s.input = x :: rs) : RacersMade defs input { s with input := rs } := by
  obtain ⟨⟨b, hd, g, k1, k2, k3, k4, k5⟩, h2⟩ := h
  refine ⟨⟨b, hd, g ++ [x], k1, k2, ?_, k4, k5⟩, h2⟩
  rw [hin] at k3
  simpa using k3

/-- The next report is taken in hand. -/
theorem made_take {defs : List ReportDef} {input : List (Except Err Report)} {s : Racers} (h : RacersMade defs input s) {r : Report}
    {rs : List (Except Err Report)} (hin : s.input = .ok r :: rs) {data : Bytes} (hr : Accepted defs r data) {i : Nat} {p : Place}
    (hi : s.all[i]? = some p) (hp : inHand p = none) (q : Place) (hq : inHand q = some data) (c : Bool) :
    RacersMade defs input ⟨s.all.set i q, s.buf, rs, s.returned, c⟩ := by
  obtain ⟨⟨b, hd, g, k1, k2, k3, k4, k5⟩, h2⟩ := h
  obtain ⟨m, m1, m2⟩ := inHand_set hi q
  rw [hp] at m1
  rw [hq] at m2
  refine ⟨⟨b, (r, data) :: hd, g, k1, ?_, k3.trans ?_, ?_, k5⟩, h2⟩
  · intro p hp
    rcases List.mem_cons.1 hp with rfl | hp
    · exact hr
    · exact k2 p hp
  · refine List.Perm.append_left _ ?_
    rw [hin, ← List.append_assoc]
    exact List.perm_middle.trans (by simp)
  · exact ((k4.trans m1).cons data).trans m2.symm

/-- A call returns. -/
theorem made_return {defs : List ReportDef} {input : List (Except Err Report)} {s : Racers} (h : RacersMade defs input s) (i : Nat)
    (x : Except Err Bytes) (hx : ∀ f, x = .ok f → f = s.buf.data) :
    RacersMade defs input { s with returned := s.returned ++ [(i, x)] } := by
  obtain ⟨⟨b, hd, g, k1, k2, k3, k4, k5⟩, h2⟩ := h
  refine ⟨⟨b, hd, g, k1, k2, k3, k4, k5⟩, fun p hp f hf => ?_⟩
  rcases List.mem_append.1 hp with hp | hp
  · exact h2 p hp f hf
  · rw [List.mem_singleton.1 hp] at hf
    exact ⟨b, k1, ⟨_, k3⟩, by rw [hx f hf, k5]⟩

theorem made_step (grow : Growth) {defs : List ReportDef} {input : List (Except Err Report)} {s : Racers} (h : RacersMade defs input s)
    (i : Nat) : RacersMade defs input (s.step grow defs i) := by
  rw [Racers.step]
  by_cases hc : s.crashed = true
  · rw [if_pos hc]; exact h
  rw [if_neg hc]
  cases hi : s.all[i]? with
  | none => exact h
  | some p =>
    cases p with
    | out => exact made_keep h hi .entered rfl _
    | entered => exact made_keep (made_reset h) hi .top rfl _
    | top =>
      simp only
      cases hin : s.input with
      | nil =>
        have := made_return (made_keep h hi .out rfl s.crashed) i (.error .eof) (by simp)
        rw [hin] at this
        exact this
      | cons x rs =>
        cases x with
        | error e => exact made_return (made_keep (made_skip h hin) hi .out rfl s.crashed) i (.error e) (by simp)
        | ok r =>
          simp only
          cases hf : find defs r.id.toNat with
          | none => exact made_return (made_keep (made_skip h hin) hi .out rfl s.crashed) i (.error Err.noReport) (by simp)
          | some d =>
            simp only
            by_cases hd : d.maxPayload < 0
            · rw [if_pos hd]
              obtain ⟨k1, k2⟩ := h
              rw [hin] at k1
              exact ⟨k1, k2⟩
            · rw [if_neg hd]
              refine made_take h hin (accepted_iff.2 ⟨d, hf, by omega, ?_⟩) hi rfl _ rfl _
              rw [Nat.min_comm, ← List.take_take, List.take_length]
    | got lc data =>
      simp only
      by_cases l0 : lc = linkControlDone
      · rw [if_pos l0]
        exact made_keep (made_reset h) hi (.emptied lc data) rfl _
      rw [if_neg l0]
      by_cases l1 : lc = linkControlMoreToFollow
      · rw [if_pos l1]
        exact made_keep (made_reset h) hi (.emptied lc data) rfl _
      rw [if_neg l1]
      by_cases l2 : lc = linkControlContinue ||| linkControlMoreToFollow
      · rw [if_pos l2]
        exact made_write grow h hi rfl .top rfl _
      rw [if_neg l2]
      by_cases l3 : lc = linkControlContinue
      · rw [if_pos l3]
        exact made_write grow h hi rfl .leaving rfl _
      rw [if_neg l3]
      exact made_drop h hi rfl .top rfl _
    | emptied lc data =>
      exact made_write grow h hi rfl _ (by by_cases l0 : lc = linkControlDone <;> simp [l0, inHand]) _
    | leaving => exact made_return (made_keep h hi .out rfl s.crashed) i (.ok s.buf.data) (by simp)

/-- C126, without a lock, statement by statement: however the goroutines take turns, whatever the table and whatever comes from the device,
a frame that is returned is data of reports that came, put together from no report more than once. -/
theorem C126_made_of (grow : Growth) (defs : List ReportDef) (n : Nat) (input : List (Except Err Report)) (schedule : List Nat) (i : Nat)
    (f : Bytes) (h : (i, .ok f) ∈ ((Racers.start n input).run grow defs schedule).returned) :
    ∃ parts : List (Report × Bytes), (∀ p ∈ parts, Accepted defs p.1 p.2) ∧
      (∃ rest, input.Perm (parts.map (fun p => .ok p.1) ++ rest)) ∧ f = (parts.map (·.2)).flatten := by
  have key : ∀ (schedule : List Nat) (s : Racers), RacersMade defs input s → RacersMade defs input (s.run grow defs schedule) := by
    intro schedule
    induction schedule with
    | nil => exact fun s h => h
    | cons j schedule ih => exact fun s h => ih _ (made_step grow h j)
  refine (key schedule (Racers.start n input) ⟨⟨[], [], [], by simp, by simp, by simp [Racers.start], ?_, rfl⟩, by simp [Racers.start]⟩).returned
    _ h f rfl
  have : (List.replicate n Place.out).filterMap inHand = [] := by
    induction n with
    | zero => rfl
    | succ n ih => simp [List.replicate_succ, inHand]
  simp [Racers.start, this]

theorem crashed_step (grow : Growth) {defs : List ReportDef} (hd : ∀ d ∈ defs, 0 ≤ d.maxPayload) {s : Racers} (h : s.crashed = false) (i : Nat) :
    (s.step grow defs i).crashed = false := by
  rw [Racers.step, if_neg (by simp [h])]
  cases hi : s.all[i]? with
  | none => exact h
  | some p =>
    cases p with
    | top =>
      simp only
      cases hin : s.input with
      | nil => exact h
      | cons x rs =>
        cases x with
        | error e => exact h
        | ok r =>
          simp only
          cases hf : find defs r.id.toNat with
          | none => exact h
          | some d =>
            obtain ⟨pre, post, h1, -, -⟩ := find_some.1 hf
            have := hd d (by rw [h1]; simp)
            simp only
            rw [if_neg (by omega)]
            exact h
    | got lc data =>
      simp only
      repeat' split
      all_goals exact h
    | _ => exact h

/-- C126, statement by statement: with a usable table no goroutine panics, however they take turns and whatever comes from the device. -/
theorem C126_no_panic (grow : Growth) (defs : List ReportDef) (hg : GoodTable defs) (n : Nat) (input : List (Except Err Report))
    (schedule : List Nat) : ((Racers.start n input).run grow defs schedule).crashed = false := by
  have hd : ∀ d ∈ defs, 0 ≤ d.maxPayload := by
    intro d hd
    have := hg.carries d hd
    simp only [ReportDef.maxPayload]
    omega
  have key : ∀ (schedule : List Nat) (s : Racers), s.crashed = false → (s.run grow defs schedule).crashed = false := by
    intro schedule
    induction schedule with
    | nil => exact fun s h => h
    | cons j schedule ih => exact fun s h => ih _ (crashed_step grow hd h j)
  exact key schedule _ rfl

/-- `C126_made_of` for the two frames that are glued together. -/
example : ∃ parts : List (Report × Bytes), (∀ p ∈ parts, Accepted [⟨1, 3, .accIn⟩] p.1 p.2) ∧
    (∃ rest, [Except.ok (ε := Err) (⟨1, 0, [1, 2]⟩ : Report), .ok ⟨1, 0, [3, 0]⟩].Perm (parts.map (fun p => .ok p.1) ++ rest)) ∧
    [1, 2, 3, 0] = (parts.map (·.2)).flatten :=
  C126_made_of (fun _ n => 2 * n) [⟨1, 3, .accIn⟩] 2 [.ok ⟨1, 0, [1, 2]⟩, .ok ⟨1, 0, [3, 0]⟩] [0, 1, 0, 1, 0, 1, 0, 1, 0, 1, 0, 1] 1
    [1, 2, 3, 0] (by
      have e : ((Racers.start 2 [.ok ⟨1, 0, [1, 2]⟩, .ok ⟨1, 0, [3, 0]⟩]).run (fun _ n => 2 * n) [⟨1, 3, .accIn⟩]
        [0, 1, 0, 1, 0, 1, 0, 1, 0, 1, 0, 1]).returned = [(0, .ok [1, 2, 3, 0]), (1, .ok [1, 2, 3, 0])] := rfl
      rw [e]
      simp)

/-- `C126_no_panic` with a read that fails and a stray report. -/
example : ((Racers.start 3 [.error .eof, .ok ⟨9, 7, []⟩]).run (fun _ n => 2 * n) [⟨1, 3, .accIn⟩] [0, 1, 0, 1, 2, 0, 1]).crashed = false :=
  C126_no_panic (fun _ n => 2 * n) [⟨1, 3, .accIn⟩] ⟨by decide, by decide, by decide, by decide⟩ 3 [.error .eof, .ok ⟨9, 7, []⟩]
    [0, 1, 0, 1, 2, 0, 1]

/-- Without room in a report: a panic. -/
example : ((Racers.start 2 [.ok ⟨1, 0, [1, 2]⟩]).run (fun _ n => 2 * n) [⟨1, 0, .accIn⟩] [0, 0, 0]).crashed = true := rfl

end Props
