import Verif.Model.Callers
import Verif.Spec.Callers
import Verif.Props.Writers

/-! # Property C124: errors of writers that share a transport -/

namespace Props
open Go Spec Ipod Hid

/-! ## C124 -/

/-- What a goroutine in this state attempts, with these answers, and what its calls return. -/
inductive Ahead (defs : List ReportDef) :
    Option (Bytes × Nat × Nat) → List Bytes → List (Report × Option Err) → List (Option Err) → Prop
  | done : Ahead defs none [] [] []
  | start {f fs as es} : Ahead defs (some (f, 0, f.length)) fs as es → Ahead defs none (f :: fs) as es
  | finish {d o b fs as es} : encodeRound defs d o b = .done → Ahead defs none fs as es → Ahead defs (some (d, o, b)) fs as (none :: es)
  | noReport {d o b fs as es e} : encodeRound defs d o b = .refused e → Ahead defs none fs as es →
      Ahead defs (some (d, o, b)) fs as (some e :: es)
  | taken {d o b o' b' r fs as es} : encodeRound defs d o b = .report r o' b' → Ahead defs (some (d, o', b')) fs as es →
      Ahead defs (some (d, o, b)) fs ((r, none) :: as) es
  | refused {d o b o' b' r fs as es e} : encodeRound defs d o b = .report r o' b' → Ahead defs none fs as es →
      Ahead defs (some (d, o, b)) fs ((r, some e) :: as) (some e :: es)

/-! ### one goroutine -/

/-- The loop only adds to what was handed over. -/
theorem writeFrameLoop_log {defs : List ReportDef} {fails : Fails} {d : Bytes} {fuel : Nat} {log log' : List Report} {o b : Nat} {e : Option Err}
    (h : writeFrameLoop defs fails d fuel log o b = some (.ret (log', e))) : ∃ t, log' = log ++ t := by
  induction fuel generalizing log o b with
  | zero => rw [writeFrameLoop] at h; cases h
  | succ fuel ih =>
    rw [writeFrameLoop_rounds] at h
    cases hr : encodeRound defs d o b with
    | done =>
      simp only [hr, Option.some.injEq, Out.ret.injEq, Prod.mk.injEq] at h
      exact ⟨[], by simp [h.1]⟩
    | refused x =>
      simp only [hr, Option.some.injEq, Out.ret.injEq, Prod.mk.injEq] at h
      exact ⟨[], by simp [h.1]⟩
    | panic => simp only [hr] at h; cases h
    | report r o' b' =>
      simp only [hr] at h
      cases hx : fails log.length with
      | some x =>
        simp only [hx, Option.some.injEq, Out.ret.injEq, Prod.mk.injEq] at h
        exact ⟨[r], h.1.symm⟩
      | none =>
        simp only [hx] at h
        obtain ⟨t, rfl⟩ := ih h
        exact ⟨r :: t, by simp⟩

/-- A call in the midst of its loop. -/
theorem loop_ahead {defs : List ReportDef} {d : Bytes} {fs : List Bytes} {as' : List (Report × Option Err)} {es : List (Option Err)}
    (ht : Ahead defs none fs as' es) {fails : Fails} {e : Option Err} (fuel : Nat) (log : List Report) (o b : Nat)
    (as : List (Report × Option Err)) (h : writeFrameLoop defs fails d fuel log o b = some (.ret (log ++ as.map (·.1), e)))
    (hf : ∀ (k : Nat) (a : Report × Option Err), as[k]? = some a → fails (log.length + k) = a.2) :
    Ahead defs (some (d, o, b)) fs (as ++ as') (e :: es) := by
  induction fuel generalizing log o b as with
  | zero => rw [writeFrameLoop] at h; cases h
  | succ fuel ih =>
    rw [writeFrameLoop_rounds] at h
    cases hr : encodeRound defs d o b with
    | done =>
      simp only [hr, Option.some.injEq, Out.ret.injEq, Prod.mk.injEq] at h
      obtain ⟨h1, rfl⟩ := h
      have : as = [] := by simpa using h1
      subst this
      exact .finish hr ht
    | refused x =>
      simp only [hr, Option.some.injEq, Out.ret.injEq, Prod.mk.injEq] at h
      obtain ⟨h1, rfl⟩ := h
      have : as = [] := by simpa using h1
      subst this
      exact .noReport hr ht
    | panic => simp only [hr] at h; cases h
    | report r o' b' =>
      simp only [hr] at h
      cases hx : fails log.length with
      | some x =>
        simp only [hx, Option.some.injEq, Out.ret.injEq, Prod.mk.injEq] at h
        obtain ⟨h1, rfl⟩ := h
        have h1 := List.append_cancel_left h1
        match as, h1 with
        | [a], h1 =>
          have h2 := hf 0 a rfl
          rw [Nat.add_zero, hx] at h2
          obtain ⟨a1, a2⟩ := a
          simp only [List.map_cons, List.map_nil, List.cons.injEq, and_true] at h1 h2
          subst h1 h2
          exact .refused hr ht
      | none =>
        simp only [hx] at h
        obtain ⟨a, as, rfl⟩ : ∃ a l, as = a :: l := by
          cases as with
          | cons a l => exact ⟨a, l, rfl⟩
          | nil =>
            exfalso
            have := writeFrameLoop_log h
            obtain ⟨t, ht⟩ := this
            have := congrArg List.length ht
            simp at this
        have h2 := hf 0 a rfl
        rw [Nat.add_zero, hx] at h2
        have hl := writeFrameLoop_log h
        obtain ⟨t, ht'⟩ := hl
        obtain ⟨a1, a2⟩ := a
        simp only [List.map_cons, List.append_assoc, List.cons_append, List.nil_append, List.append_cancel_left_eq,
          List.cons.injEq] at ht' h2
        obtain ⟨rfl, -⟩ := ht'
        subst h2
        refine .taken hr (ih (log ++ [_]) o' b' as (by simpa using h) ?_)
        intro k a hk
        have := hf (k + 1) a hk
        rw [← this]
        congr 1
        simp; omega

theorem ahead_of_alone {defs : List ReportDef} {fs : List Bytes} {as : List (Report × Option Err)} {es : List (Option Err)}
    (h : Alone defs fs as es) : Ahead defs none fs as es := by
  induction h with
  | done => exact .done
  | @call f fs as as' e es fuel fails h1 h2 _ ih =>
    exact .start (loop_ahead ih fuel [] 0 f.length as (by simpa [writeFrameFor] using h1) (by simpa using h2))

/-- The state of a goroutine in the midst of a call, in terms of the loop. -/
def Midst (defs : List ReportDef) (fs : List Bytes) (as : List (Report × Option Err)) (es : List (Option Err)) :
    Option (Bytes × Nat × Nat) → Prop
  | none => Alone defs fs as es
  | some (d, o, b) => ∃ as1 as2 e es', as = as1 ++ as2 ∧ es = e :: es' ∧ Alone defs fs as2 es' ∧
      ∃ fuel, ∀ (log : List Report) (fails : Fails), (∀ (k : Nat) (a : Report × Option Err), as1[k]? = some a → fails (log.length + k) = a.2) →
        writeFrameLoop defs fails d fuel log o b = some (.ret (log ++ as1.map (·.1), e))

theorem midst_of_ahead {defs : List ReportDef} {call : Option (Bytes × Nat × Nat)} {fs : List Bytes} {as : List (Report × Option Err)}
    {es : List (Option Err)} (h : Ahead defs call fs as es) : Midst defs fs as es call := by
  induction h with
  | done => exact Alone.done
  | @start f fs as es _ ih =>
    obtain ⟨as1, as2, e, es', rfl, rfl, h1, fuel, h2⟩ := ih
    have := h2 [] (fun k => (as1[k]?).bind (·.2)) (by intro k a hk; simp [hk])
    exact Alone.call (fuel := fuel) (by simpa [writeFrameFor] using this) (by intro k a hk; simp [hk]) h1
  | @finish d o b fs as es hr _ ih =>
    exact ⟨[], as, none, es, rfl, rfl, ih, 1, fun log fails _ => by rw [writeFrameLoop_rounds, hr]; simp⟩
  | @noReport d o b fs as es e hr _ ih =>
    exact ⟨[], as, some e, es, rfl, rfl, ih, 1, fun log fails _ => by rw [writeFrameLoop_rounds, hr]; simp⟩
  | @taken d o b o' b' r fs as es hr _ ih =>
    obtain ⟨as1, as2, e, es', rfl, rfl, h1, fuel, h2⟩ := ih
    refine ⟨(r, none) :: as1, as2, e, es', rfl, rfl, h1, fuel + 1, fun log fails hf => ?_⟩
    rw [writeFrameLoop_rounds, hr]
    have h0 := hf 0 _ rfl
    rw [Nat.add_zero] at h0
    simp only [h0]
    rw [h2 (log ++ [r]) fails ?_]
    · simp
    · intro k a hk
      have := hf (k + 1) a hk
      rw [← this]
      congr 1
      simp; omega
  | @refused d o b o' b' r fs as es e hr _ ih =>
    refine ⟨[(r, some e)], as, some e, es, rfl, rfl, ih, 1, fun log fails hf => ?_⟩
    rw [writeFrameLoop_rounds, hr]
    have h0 := hf 0 _ rfl
    rw [Nat.add_zero] at h0
    simp only [h0]
    simp

theorem ahead_iff {defs : List ReportDef} {fs : List Bytes} {as : List (Report × Option Err)} {es : List (Option Err)} :
    Ahead defs none fs as es ↔ Alone defs fs as es := ⟨fun h => midst_of_ahead h, ahead_of_alone⟩

/-! ### all of them -/

/-- The goroutines against what each has still to attempt and what its calls return in the end. -/
def Facing (defs : List ReportDef) (s : Callers) (ass : List (List (Report × Option Err))) (ess : List (List (Option Err))) : Prop :=
  s.crashed = false ∧ ass.length = s.all.length ∧ ess.length = s.all.length ∧
  ∀ (i : Nat) (w : Caller), s.all[i]? = some w → ∃ as es, ass[i]? = some as ∧ ess[i]? = some (w.returned ++ es) ∧
    Ahead defs w.call w.frames as es

/-- The attempts with the number of the goroutine. -/
def tagged {α : Type} (ass : List (List α)) : List (List (Nat × α)) := ass.mapIdx fun i as => as.map (i, ·)

theorem facing_set {defs : List ReportDef} {s : Callers} {ass : List (List (Report × Option Err))} {ess : List (List (Option Err))}
    (h : Facing defs s ass ess) {i : Nat} {w : Caller} {as : List (Report × Option Err)} {es : List (Option Err)} (hi : i < s.all.length)
    (he : ess[i]? = some (w.returned ++ es)) (hw : Ahead defs w.call w.frames as es) (l : List (Nat × Report × Option Err)) :
    Facing defs ⟨s.all.set i w, l, s.crashed⟩ (ass.set i as) ess := by
  refine ⟨h.1, by simp [h.2.1], by simp [h.2.2.1], fun j x hj => ?_⟩
  simp only [List.getElem?_set] at hj ⊢
  by_cases hij : i = j
  · subst hij
    simp only [if_true, hi] at hj
    cases hj
    exact ⟨as, es, by rw [if_pos rfl, if_pos (by rw [h.2.1]; exact hi)], he, hw⟩
  · rw [if_neg hij] at hj
    rw [if_neg hij]
    exact h.2.2.2 j x hj

theorem tagged_get {α : Type} (ass : List (List α)) (i : Nat) : (tagged ass)[i]? = ass[i]?.map fun as => as.map (i, ·) := by
  rw [tagged, List.getElem?_mapIdx]

theorem tagged_set {α : Type} (ass : List (List α)) (i : Nat) (as : List α) : tagged (ass.set i as) = (tagged ass).set i (as.map (i, ·)) := by
  apply List.ext_getElem?
  intro j
  rw [tagged_get, List.getElem?_set, List.getElem?_set, tagged_get, tagged, List.length_mapIdx]
  by_cases hij : i = j
  · subst hij
    rw [if_pos rfl, if_pos rfl]
    split <;> rfl
  · rw [if_neg hij, if_neg hij]

/-- What a step of goroutine `i` means for what is ahead of it. -/
theorem step_facing {defs : List ReportDef} {fails : Fails} {s : Callers} {i : Nat} {ass : List (List (Report × Option Err))}
    {ess : List (List (Option Err))} (h : Facing defs (s.step defs fails i) ass ess) :
    (Facing defs s ass ess ∧ (s.step defs fails i).attempts = s.attempts) ∨
    ∃ as r, ass[i]? = some as ∧ Facing defs s (ass.set i ((r, fails s.attempts.length) :: as)) ess ∧
      (s.step defs fails i).attempts = s.attempts ++ [(i, r, fails s.attempts.length)] := by
  by_cases hc : s.crashed = true
  · rw [Callers.step, if_pos hc] at h ⊢
    exact .inl ⟨h, by first | rfl | trivial⟩
  have hcf : s.crashed = false := by simpa using hc
  rw [Callers.step, if_neg hc] at h ⊢
  cases hw : s.all[i]? with
  | none => simp only [hw] at h ⊢; exact .inl ⟨h, by first | rfl | trivial⟩
  | some w =>
    obtain ⟨hi, _⟩ := List.getElem?_eq_some_iff.1 hw
    -- the state before, from the state after with `w'` in place of `w`
    have back : ∀ (w' : Caller) (l : List (Nat × Report × Option Err)) (as' : List (Report × Option Err) → List (Report × Option Err)),
        Facing defs ⟨s.all.set i w', l, s.crashed⟩ ass ess →
        (∀ as es, Ahead defs w'.call w'.frames as es → ∃ es', w'.returned ++ es = w.returned ++ es' ∧
          Ahead defs w.call w.frames (as' as) es') →
        ∃ as, ass[i]? = some as ∧ Facing defs s (ass.set i (as' as)) ess := by
      intro w' l as' hf hk
      have hl : i < (s.all.set i w').length := by simpa using hi
      obtain ⟨as, es, e1, e2, e3⟩ := hf.2.2.2 i w' (by
        show (s.all.set i w')[i]? = _
        rw [List.getElem?_set, if_pos rfl, if_pos hi])
      obtain ⟨es', g1, g2⟩ := hk as es e3
      refine ⟨as, e1, ?_⟩
      have := facing_set (w := w) hf hl (by rw [e2, g1]) g2 s.attempts
      rwa [show (s.all.set i w').set i w = s.all by rw [List.set_set, set_same hw]] at this
    have quiet : ∀ (w' : Caller), Facing defs ⟨s.all.set i w', s.attempts, s.crashed⟩ ass ess →
        (∀ as es, Ahead defs w'.call w'.frames as es → ∃ es', w'.returned ++ es = w.returned ++ es' ∧ Ahead defs w.call w.frames as es') →
        Facing defs s ass ess := by
      intro w' hf hk
      obtain ⟨as, e1, e2⟩ := back w' _ id hf hk
      rwa [id, set_same e1] at e2
    obtain ⟨call, frames, returned⟩ := w
    cases call with
    | none =>
      cases frames with
      | nil => simp only [hw] at h ⊢; exact .inl ⟨h, by first | rfl | trivial⟩
      | cons f fs =>
        simp only [hw] at h ⊢
        exact .inl ⟨quiet _ h fun as es ha => ⟨es, rfl, .start ha⟩, by first | rfl | trivial⟩
    | some v =>
      obtain ⟨d, o, b⟩ := v
      simp only [hw] at h ⊢
      cases hr : encodeRound defs d o b with
      | done =>
        simp only [hr] at h ⊢
        exact .inl ⟨quiet _ h fun as es ha => ⟨none :: es, by simp, .finish hr ha⟩, by first | rfl | trivial⟩
      | refused e =>
        simp only [hr] at h ⊢
        exact .inl ⟨quiet _ h fun as es ha => ⟨some e :: es, by simp, .noReport hr ha⟩, by first | rfl | trivial⟩
      | panic =>
        simp only [hr] at h
        exact absurd h.1 (by simp)
      | report r o' b' =>
        simp only [hr] at h ⊢
        right
        cases hx : fails s.attempts.length with
        | none =>
          simp only [hx] at h ⊢
          obtain ⟨as, e1, e2⟩ := back _ _ ((r, none) :: ·) h fun as es ha => ⟨es, rfl, .taken hr ha⟩
          exact ⟨as, r, e1, e2, by first | rfl | trivial⟩
        | some e =>
          simp only [hx] at h ⊢
          obtain ⟨as, e1, e2⟩ := back _ _ ((r, some e) :: ·) h fun as es ha => ⟨some e :: es, by simp, .refused hr ha⟩
          exact ⟨as, r, e1, e2, by first | rfl | trivial⟩

theorem facing_finished {defs : List ReportDef} {s : Callers} (h : s.finished) :
    Facing defs s (s.all.map fun _ => []) (s.all.map (·.returned)) := by
  refine ⟨h.1, by simp, by simp, fun i w hw => ?_⟩
  obtain ⟨h1, h2⟩ := h.2 w (List.mem_of_getElem? hw)
  refine ⟨[], [], by simp [hw], by simp [hw], ?_⟩
  rw [h1, h2]
  exact .done

theorem run_facing {defs : List ReportDef} {fails : Fails} (schedule : List Nat) {s : Callers} (hf : (s.run defs fails schedule).finished) :
    ∃ ass log, Facing defs s ass ((s.run defs fails schedule).all.map (·.returned)) ∧
      (s.run defs fails schedule).attempts = s.attempts ++ log ∧ Mixed (tagged ass) log := by
  induction schedule generalizing s with
  | nil =>
    refine ⟨_, [], facing_finished hf, by simp [Callers.run], .done ?_⟩
    intro w hw
    obtain ⟨i, hi, rfl⟩ := List.getElem_of_mem hw
    have := List.getElem?_eq_getElem hi
    rw [tagged_get, List.getElem?_map, Option.map_map] at this
    cases hx : s.all[i]? with
    | none => rw [hx] at this; cases this
    | some y => rw [hx] at this; simpa using this.symm
  | cons i schedule ih =>
    rw [Callers.run, List.foldl_cons] at hf ⊢
    obtain ⟨ass, log, h1, h2, h3⟩ := ih hf
    rcases step_facing h1 with ⟨g1, g2⟩ | ⟨as, r, g0, g1, g2⟩
    · rw [g2] at h2
      exact ⟨ass, log, g1, h2, h3⟩
    · rw [g2] at h2
      refine ⟨_, (i, r, fails s.attempts.length) :: log, g1, by rw [Callers.run] at h2; rw [h2]; simp, ?_⟩
      have hlt : i < ass.length := (List.getElem?_eq_some_iff.1 g0).1
      refine .step i (l := as.map (i, ·)) ?_ ?_
      · rw [tagged_get, List.getElem?_set, if_pos rfl, if_pos hlt]; rfl
      · rw [tagged_set, List.set_set]
        have : (tagged ass)[i]? = some (as.map (i, ·)) := by rw [tagged_get, g0]; rfl
        rw [set_same this]
        exact h3

/-! ### any order is possible -/

theorem callers_append (defs : List ReportDef) (fails : Fails) (s : Callers) (a b : List Nat) :
    s.run defs fails (a ++ b) = (s.run defs fails a).run defs fails b := by
  rw [Callers.run, List.foldl_append]; rfl

theorem callers_again (defs : List ReportDef) (fails : Fails) (s : Callers) (i : Nat) (a : List Nat) :
    s.run defs fails (i :: a) = (s.step defs fails i).run defs fails a := rfl

/-- A goroutine left to run attempts the report that is ahead of it. -/
theorem attempt_next {defs : List ReportDef} {fails : Fails} {call : Option (Bytes × Nat × Nat)} {fs : List Bytes}
    {as0 : List (Report × Option Err)} {es : List (Option Err)} (h : Ahead defs call fs as0 es) {i : Nat} {a : Report × Option Err}
    {as : List (Report × Option Err)} (has : as0 = a :: as) {s : Callers} (hc : s.crashed = false) {ret : List (Option Err)}
    (hi : s.all[i]? = some ⟨call, fs, ret⟩) (hx : fails s.attempts.length = a.2) :
    ∃ n w es', s.run defs fails (List.replicate n i) = ⟨s.all.set i w, s.attempts ++ [(i, a)], false⟩ ∧
      ret ++ es = w.returned ++ es' ∧ Ahead defs w.call w.frames as es' := by
  induction h generalizing s ret with
  | done => cases has
  | @start f fs as0 es _ ih =>
    have hlt : i < s.all.length := (List.getElem?_eq_some_iff.1 hi).1
    obtain ⟨n, w, es', h1, h2, h3⟩ := ih has (s := ⟨s.all.set i ⟨some (f, 0, f.length), fs, ret⟩, s.attempts, s.crashed⟩) hc (ret := ret)
      (by show (s.all.set i _)[i]? = _; rw [List.getElem?_set, if_pos rfl, if_pos hlt]) hx
    refine ⟨n + 1, w, es', ?_, h2, h3⟩
    rw [List.replicate_succ, callers_again, show s.step defs fails i = ⟨s.all.set i ⟨some (f, 0, f.length), fs, ret⟩, s.attempts, s.crashed⟩ by
      rw [Callers.step, if_neg (by rw [hc]; decide)]; simp only [hi], h1, List.set_set]
  | @finish d o b fs as0 es hr _ ih =>
    have hlt : i < s.all.length := (List.getElem?_eq_some_iff.1 hi).1
    obtain ⟨n, w, es', h1, h2, h3⟩ := ih has (s := ⟨s.all.set i ⟨none, fs, ret ++ [none]⟩, s.attempts, s.crashed⟩) hc (ret := ret ++ [none])
      (by show (s.all.set i _)[i]? = _; rw [List.getElem?_set, if_pos rfl, if_pos hlt]) hx
    refine ⟨n + 1, w, es', ?_, by rw [← h2]; simp, h3⟩
    rw [List.replicate_succ, callers_again, show s.step defs fails i = ⟨s.all.set i ⟨none, fs, ret ++ [none]⟩, s.attempts, s.crashed⟩ by
      rw [Callers.step, if_neg (by rw [hc]; decide)]; simp only [hi, hr], h1, List.set_set]
  | @noReport d o b fs as0 es e hr _ ih =>
    have hlt : i < s.all.length := (List.getElem?_eq_some_iff.1 hi).1
    obtain ⟨n, w, es', h1, h2, h3⟩ := ih has (s := ⟨s.all.set i ⟨none, fs, ret ++ [some e]⟩, s.attempts, s.crashed⟩) hc
      (ret := ret ++ [some e]) (by show (s.all.set i _)[i]? = _; rw [List.getElem?_set, if_pos rfl, if_pos hlt]) hx
    refine ⟨n + 1, w, es', ?_, by rw [← h2]; simp, h3⟩
    rw [List.replicate_succ, callers_again, show s.step defs fails i = ⟨s.all.set i ⟨none, fs, ret ++ [some e]⟩, s.attempts, s.crashed⟩ by
      rw [Callers.step, if_neg (by rw [hc]; decide)]; simp only [hi, hr], h1, List.set_set]
  | @taken d o b o' b' r fs as0 es hr ht _ =>
    cases has
    refine ⟨1, ⟨some (d, o', b'), fs, ret⟩, es, ?_, rfl, ht⟩
    rw [show List.replicate 1 i = [i] from rfl, callers_again, Callers.step, if_neg (by rw [hc]; decide)]
    simp only [hi, hr, hx, Callers.run, List.foldl_nil, hc]
  | @refused d o b o' b' r fs as0 es e hr ht _ =>
    cases has
    refine ⟨1, ⟨none, fs, ret ++ [some e]⟩, es, ?_, by simp, ht⟩
    rw [show List.replicate 1 i = [i] from rfl, callers_again, Callers.step, if_neg (by rw [hc]; decide)]
    simp only [hi, hr, hx, Callers.run, List.foldl_nil, hc]

/-- A goroutine with no report ahead of it finishes if it is left to run. -/
theorem finish_one {defs : List ReportDef} {fails : Fails} {call : Option (Bytes × Nat × Nat)} {fs : List Bytes}
    {as0 : List (Report × Option Err)} {es : List (Option Err)} (h : Ahead defs call fs as0 es) {i : Nat} (has : as0 = [])
    {s : Callers} (hc : s.crashed = false) {ret : List (Option Err)} (hi : s.all[i]? = some ⟨call, fs, ret⟩) :
    ∃ n, s.run defs fails (List.replicate n i) = ⟨s.all.set i ⟨none, [], ret ++ es⟩, s.attempts, false⟩ := by
  induction h generalizing s ret with
  | done =>
    refine ⟨0, ?_⟩
    rw [List.append_nil, set_same hi, ← hc]
    rfl
  | @start f fs as0 es _ ih =>
    have hlt : i < s.all.length := (List.getElem?_eq_some_iff.1 hi).1
    obtain ⟨n, h1⟩ := ih has (s := ⟨s.all.set i ⟨some (f, 0, f.length), fs, ret⟩, s.attempts, s.crashed⟩) hc (ret := ret)
      (by show (s.all.set i _)[i]? = _; rw [List.getElem?_set, if_pos rfl, if_pos hlt])
    refine ⟨n + 1, ?_⟩
    rw [List.replicate_succ, callers_again, show s.step defs fails i = ⟨s.all.set i ⟨some (f, 0, f.length), fs, ret⟩, s.attempts, s.crashed⟩ by
      rw [Callers.step, if_neg (by rw [hc]; decide)]; simp only [hi], h1, List.set_set]
  | @finish d o b fs as0 es hr _ ih =>
    have hlt : i < s.all.length := (List.getElem?_eq_some_iff.1 hi).1
    obtain ⟨n, h1⟩ := ih has (s := ⟨s.all.set i ⟨none, fs, ret ++ [none]⟩, s.attempts, s.crashed⟩) hc (ret := ret ++ [none])
      (by show (s.all.set i _)[i]? = _; rw [List.getElem?_set, if_pos rfl, if_pos hlt])
    refine ⟨n + 1, ?_⟩
    rw [List.replicate_succ, callers_again, show s.step defs fails i = ⟨s.all.set i ⟨none, fs, ret ++ [none]⟩, s.attempts, s.crashed⟩ by
      rw [Callers.step, if_neg (by rw [hc]; decide)]; simp only [hi, hr], h1, List.set_set, List.append_assoc]
    rfl
  | @noReport d o b fs as0 es e hr _ ih =>
    have hlt : i < s.all.length := (List.getElem?_eq_some_iff.1 hi).1
    obtain ⟨n, h1⟩ := ih has (s := ⟨s.all.set i ⟨none, fs, ret ++ [some e]⟩, s.attempts, s.crashed⟩) hc (ret := ret ++ [some e])
      (by show (s.all.set i _)[i]? = _; rw [List.getElem?_set, if_pos rfl, if_pos hlt])
    refine ⟨n + 1, ?_⟩
    rw [List.replicate_succ, callers_again, show s.step defs fails i = ⟨s.all.set i ⟨none, fs, ret ++ [some e]⟩, s.attempts, s.crashed⟩ by
      rw [Callers.step, if_neg (by rw [hc]; decide)]; simp only [hi, hr], h1, List.set_set, List.append_assoc]
    rfl
  | taken => cases has
  | refused => cases has

/-- If no reports are ahead, the goroutines can finish one after the other. -/
theorem finish_all {defs : List ReportDef} {fails : Fails} {ass : List (List (Report × Option Err))} {ess : List (List (Option Err))}
    (hz : ∀ as ∈ ass, as = []) (k : Nat) {s : Callers} (h : Facing defs s ass ess) :
    ∃ schedule, Facing defs (s.run defs fails schedule) ass ess ∧ (s.run defs fails schedule).attempts = s.attempts ∧
      ∀ (i : Nat) (w : Caller), i < k → (s.run defs fails schedule).all[i]? = some w → w.call = none ∧ w.frames = [] := by
  induction k with
  | zero => exact ⟨[], h, rfl, fun i w hi => absurd hi (by omega)⟩
  | succ k ih =>
    obtain ⟨sch, h1, h2, h3⟩ := ih
    cases hw : (s.run defs fails sch).all[k]? with
    | none =>
      refine ⟨sch, h1, h2, fun i w hi hg => ?_⟩
      by_cases hik : i = k
      · subst hik; rw [hw] at hg; cases hg
      · exact h3 i w (by omega) hg
    | some w =>
      obtain ⟨hlt, _⟩ := List.getElem?_eq_some_iff.1 hw
      obtain ⟨as, es, e1, e2, e3⟩ := h1.2.2.2 k w hw
      have has := hz as (List.mem_of_getElem? e1)
      obtain ⟨n, hn⟩ := finish_one (fails := fails) e3 has h1.1 (ret := w.returned) hw
      refine ⟨sch ++ List.replicate n k, ?_, ?_, ?_⟩
      · rw [callers_append, hn]
        have := facing_set (w := ⟨none, [], w.returned ++ es⟩) (as := as) (es := []) h1 hlt (by rw [e2]; simp) (by rw [has]; exact .done)
          (s.run defs fails sch).attempts
        rwa [set_same e1, h1.1] at this
      · rw [callers_append, hn, h2]
      · intro i x hi hg
        rw [callers_append, hn] at hg
        simp only [List.getElem?_set] at hg
        by_cases hik : k = i
        · subst hik
          rw [if_pos rfl, if_pos hlt] at hg
          cases hg
          exact ⟨rfl, rfl⟩
        · rw [if_neg hik] at hg
          exact h3 i x (by omega) hg

theorem can_attempt {defs : List ReportDef} {fails : Fails} {ws : List (List (Nat × Report × Option Err))} {log : List (Nat × Report × Option Err)}
    (hm : Mixed ws log) {ass : List (List (Report × Option Err))} {ess : List (List (Option Err))} (hws : ws = tagged ass) {s : Callers}
    (h : Facing defs s ass ess) (hf : ∀ (k : Nat) (a : Nat × Report × Option Err), log[k]? = some a → fails (s.attempts.length + k) = a.2.2) :
    ∃ schedule, (s.run defs fails schedule).finished ∧ (s.run defs fails schedule).attempts = s.attempts ++ log ∧
      (s.run defs fails schedule).all.map (·.returned) = ess := by
  induction hm generalizing ass s with
  | @done ws hz =>
    have hz' : ∀ as ∈ ass, as = [] := by
      intro as has
      obtain ⟨i, hi, rfl⟩ := List.getElem_of_mem has
      have : (tagged ass)[i]? = some (ass[i].map (i, ·)) := by rw [tagged_get, List.getElem?_eq_getElem hi]; rfl
      have := hz _ (by rw [hws]; exact List.mem_of_getElem? this)
      simpa using this
    obtain ⟨sch, h1, h2, h3⟩ := finish_all (fails := fails) hz' s.all.length h
    have hlen : (s.run defs fails sch).all.length = s.all.length := by rw [← h1.2.1, h.2.1]
    have hfin : ∀ (i : Nat) (w : Caller), (s.run defs fails sch).all[i]? = some w → w.call = none ∧ w.frames = [] := by
      intro i w hw
      exact h3 i w (by rw [← hlen]; exact (List.getElem?_eq_some_iff.1 hw).1) hw
    refine ⟨sch, ⟨h1.1, fun w hw => ?_⟩, by rw [h2]; simp, ?_⟩
    · obtain ⟨i, hi, rfl⟩ := List.getElem_of_mem hw
      exact hfin i _ (List.getElem?_eq_getElem hi)
    · apply List.ext_getElem?
      intro i
      rw [List.getElem?_map]
      cases hw : (s.run defs fails sch).all[i]? with
      | none =>
        rw [List.getElem?_eq_none_iff] at hw
        rw [List.getElem?_eq_none (by rw [h1.2.2.1]; exact hw)]
        rfl
      | some w =>
        obtain ⟨as, es, -, e2, e3⟩ := h1.2.2.2 i w hw
        obtain ⟨f1, f2⟩ := hfin i w hw
        rw [f1, f2] at e3
        cases e3
        rw [e2, List.append_nil]
        rfl
  | @step ws log l a i hi _ ih =>
    subst hws
    rw [tagged_get] at hi
    cases hass : ass[i]? with
    | none => rw [hass] at hi; cases hi
    | some as0 =>
      rw [hass] at hi
      match as0, hi with
      | a' :: as, hi =>
        simp only [Option.map_some, List.map_cons, Option.some.injEq, List.cons.injEq] at hi
        obtain ⟨rfl, rfl⟩ := hi
        have hlt : i < s.all.length := by rw [← h.2.1]; exact (List.getElem?_eq_some_iff.1 hass).1
        obtain ⟨as1, es, e1, e2, e3⟩ := h.2.2.2 i _ (List.getElem?_eq_getElem hlt)
        rw [hass] at e1
        cases e1
        have hx := hf 0 _ rfl
        rw [Nat.add_zero] at hx
        obtain ⟨n, w, es', g1, g2, g3⟩ := attempt_next e3 rfl h.1 (ret := s.all[i].returned) (List.getElem?_eq_getElem hlt) hx
        have hfac := facing_set (w := w) h hlt (by rw [e2, g2]) g3 (s.attempts ++ [(i, a')])
        rw [h.1, ← g1] at hfac
        obtain ⟨sch, k1, k2, k3⟩ := ih (ass := ass.set i as) (by rw [tagged_set]) hfac (by
          intro k b hb
          have := hf (k + 1) b hb
          rw [← this, g1]
          congr 1
          simp only [List.length_append, List.length_singleton]
          omega)
        refine ⟨List.replicate n i ++ sch, ?_, ?_, ?_⟩
        · rw [callers_append]; exact k1
        · rw [callers_append, k2, g1]; simp
        · rw [callers_append]; exact k3

/-! ### the theorems -/

theorem facing_start {defs : List ReportDef} {frames : List (List Bytes)} {ass : List (List (Report × Option Err))}
    {ess : List (List (Option Err))} : Facing defs (Callers.start frames) ass ess ↔ ass.length = frames.length ∧ ess.length = frames.length ∧
      ∀ (i : Nat) (fs : List Bytes), frames[i]? = some fs → ∃ as es, ass[i]? = some as ∧ ess[i]? = some es ∧ Alone defs fs as es := by
  constructor
  · rintro ⟨-, h1, h2, h3⟩
    refine ⟨by simpa [Callers.start] using h1, by simpa [Callers.start] using h2, fun i fs hi => ?_⟩
    obtain ⟨as, es, e1, e2, e3⟩ := h3 i ⟨none, fs, []⟩ (by simp [Callers.start, hi])
    exact ⟨as, es, e1, by simpa using e2, ahead_iff.1 e3⟩
  · rintro ⟨h1, h2, h3⟩
    refine ⟨rfl, by simpa [Callers.start] using h1, by simpa [Callers.start] using h2, fun i w hw => ?_⟩
    simp only [Callers.start, List.getElem?_map, Option.map_eq_some_iff] at hw
    obtain ⟨fs, hi, rfl⟩ := hw
    obtain ⟨as, es, e1, e2, e3⟩ := h3 i fs hi
    exact ⟨as, es, e1, by simpa using e2, ahead_iff.2 e3⟩

/-- C124. What can happen when goroutines write frames to a transport that may refuse any report: exactly that each of them goes through
its frames as if it had a transport for itself that refuses the reports refused to it, and returns what it would then return, the
reports of all in any order. For all tables. -/
theorem C124_iff (defs : List ReportDef) (frames : List (List Bytes)) (log : List (Nat × Report × Option Err))
    (results : List (List (Option Err))) :
    (∃ fails schedule, ((Callers.start frames).run defs fails schedule).finished ∧
      ((Callers.start frames).run defs fails schedule).attempts = log ∧
      ((Callers.start frames).run defs fails schedule).all.map (·.returned) = results) ↔
    ∃ ass, ass.length = frames.length ∧ results.length = frames.length ∧ Mixed (tagged ass) log ∧
      ∀ (i : Nat) (fs : List Bytes), frames[i]? = some fs → ∃ as es, ass[i]? = some as ∧ results[i]? = some es ∧ Alone defs fs as es := by
  constructor
  · rintro ⟨fails, sch, h1, h2, h3⟩
    obtain ⟨ass, log', k1, k2, k3⟩ := run_facing sch h1
    rw [h3] at k1
    obtain ⟨g1, g2, g3⟩ := facing_start.1 k1
    rw [h2] at k2
    simp only [Callers.start, List.nil_append] at k2
    subst k2
    exact ⟨ass, g1, g2, k3, g3⟩
  · rintro ⟨ass, h1, h2, h3, h4⟩
    obtain ⟨sch, k1, k2, k3⟩ := can_attempt (fails := fun k => (log[k]?).bind (·.2.2)) h3 rfl (facing_start.2 ⟨h1, h2, h4⟩)
      (by intro k a hk; simp [Callers.start, hk])
    exact ⟨_, sch, k1, by rw [k2]; simp [Callers.start], k3⟩

theorem ofGoroutine_mixed {ws : List (List (Nat × Report × Option Err))} {log : List (Nat × Report × Option Err)} (hm : Mixed ws log)
    {ass : List (List (Report × Option Err))} (hws : ws = tagged ass) {i : Nat} {as : List (Report × Option Err)} (hi : ass[i]? = some as) :
    ofGoroutine i log = as := by
  induction hm generalizing ass as with
  | @done ws hz =>
    have : (tagged ass)[i]? = some (as.map (i, ·)) := by rw [tagged_get, hi]; rfl
    have := hz _ (by rw [hws]; exact List.mem_of_getElem? this)
    have : as = [] := by simpa using this
    rw [this]; rfl
  | @step ws log l a j hj _ ih =>
    subst hws
    rw [tagged_get] at hj
    cases hass : ass[j]? with
    | none => rw [hass] at hj; cases hj
    | some as0 =>
      rw [hass] at hj
      match as0, hj with
      | a' :: as', hj =>
        simp only [Option.map_some, List.map_cons, Option.some.injEq, List.cons.injEq] at hj
        obtain ⟨rfl, rfl⟩ := hj
        have hlt : j < ass.length := (List.getElem?_eq_some_iff.1 hass).1
        by_cases hij : i = j
        · subst hij
          rw [hass] at hi
          cases hi
          have := ih (ass := ass.set i as') (as := as') (by rw [tagged_set]) (by rw [List.getElem?_set, if_pos rfl, if_pos hlt])
          rw [ofGoroutine, List.filter_cons, if_pos (by simp), List.map_cons]
          exact congrArg _ this
        · have := ih (ass := ass.set j as') (as := as) (by rw [tagged_set]) (by rw [List.getElem?_set, if_neg (fun h => hij h.symm)]; exact hi)
          rw [ofGoroutine, List.filter_cons, if_neg (by simpa using fun h => hij h.symm)]
          exact this

/-- C124, one goroutine: what it attempts and what its calls return is what it would do alone, whatever the others do and whatever is
refused to them. -/
theorem C124_alone (defs : List ReportDef) (fails : Fails) (frames : List (List Bytes)) (schedule : List Nat) (s : Callers)
    (hs : s = (Callers.start frames).run defs fails schedule) (hf : s.finished) (i : Nat) (fs : List Bytes) (hi : frames[i]? = some fs) :
    ∃ w, s.all[i]? = some w ∧ Alone defs fs (ofGoroutine i s.attempts) w.returned := by
  obtain ⟨ass, h1, h2, h3, h4⟩ := (C124_iff defs frames _ _).1 ⟨fails, schedule, hs ▸ hf, rfl, rfl⟩
  obtain ⟨as, es, e1, e2, e3⟩ := h4 i fs hi
  rw [← hs] at h3 e2
  rw [List.getElem?_map, Option.map_eq_some_iff] at e2
  obtain ⟨w, e2, rfl⟩ := e2
  exact ⟨w, e2, by rw [ofGoroutine_mixed h3 rfl e1]; exact e3⟩

/-- Two goroutines that have finished, the second report refused. -/
example :=
  C124_alone [⟨1, 3, .accIn⟩] (fun k => if k = 1 then some (.other 7) else none) [[[1, 2, 3]], [[4], [5]]] [0, 0, 1, 0, 1, 1, 1, 1, 1] _ rfl
    (by unfold Callers.finished; decide +kernel) 1 [[4], [5]] rfl

theorem outcome_callOf (fails : Fails) (log rs : List Report) : ∃ as e, Hid.outcome fails log rs = (log ++ as.map (·.1), e) ∧ CallOf rs as e ∧
    ∀ (as' : List (Report × Option Err)) (e' : Option Err), Hid.outcome fails log rs = (log ++ as'.map (·.1), e') →
      (∀ (k : Nat) (a : Report × Option Err), as'[k]? = some a → fails (log.length + k) = a.2) → as' = as ∧ e' = e := by
  induction rs generalizing log with
  | nil =>
    refine ⟨[], none, by simp [Hid.outcome], .taken [], ?_⟩
    intro as' e' h _
    simp only [Hid.outcome, Prod.mk.injEq] at h
    exact ⟨by simpa using h.1, h.2.symm⟩
  | cons r rs ih =>
    cases hx : fails log.length with
    | some x =>
      refine ⟨[(r, some x)], some x, by rw [Hid.outcome, hx]; rfl, .refused [] rs r x, ?_⟩
      intro as' e' h hf
      rw [Hid.outcome, hx] at h
      simp only [Prod.mk.injEq, List.append_cancel_left_eq] at h
      obtain ⟨h1, rfl⟩ := h
      match as', h1 with
      | [a], h1 =>
        have h2 := hf 0 a rfl
        rw [Nat.add_zero, hx] at h2
        obtain ⟨a1, a2⟩ := a
        simp only [List.map_cons, List.map_nil, List.cons.injEq, and_true] at h1 h2
        rw [h1, h2]
        exact ⟨rfl, rfl⟩
    | none =>
      obtain ⟨as, e, h1, h2, h3⟩ := ih (log ++ [r])
      refine ⟨(r, none) :: as, e, by rw [Hid.outcome, hx]; simp only; rw [h1]; simp, ?_, ?_⟩
      · cases h2 with
        | taken => exact .taken (r :: rs)
        | refused pre post r' e => exact .refused (r :: pre) post r' e
      · intro as' e' h hf
        rw [Hid.outcome, hx] at h
        simp only at h
        cases as' with
        | nil =>
          exfalso
          rw [h1] at h
          have := congrArg (fun x => x.1.length) h
          simp at this
        | cons a as' =>
          have h4 := hf 0 a rfl
          rw [Nat.add_zero, hx] at h4
          obtain ⟨a1, a2⟩ := a
          have h5 := h
          rw [h1] at h5
          simp only [List.map_cons, List.append_assoc, List.cons_append, List.nil_append, Prod.mk.injEq, List.append_cancel_left_eq,
            List.cons.injEq] at h5 h4
          obtain ⟨⟨rfl, -⟩, -⟩ := h5
          subst h4
          obtain ⟨g1, g2⟩ := h3 as' e' (by rw [h]; simp) (by
            intro k a hk
            have := hf (k + 1) a hk
            rw [← this]
            congr 1
            simp; omega)
          rw [g1, g2]
          exact ⟨rfl, rfl⟩

theorem alone_calls {defs : List ReportDef} (hg : GoodTable defs) {fs : List Bytes} {as : List (Report × Option Err)} {es : List (Option Err)}
    (h : Alone defs fs as es) : ∃ parts : List (List (Report × Option Err)), as = parts.flatten ∧ parts.length = fs.length ∧ es.length = fs.length ∧
      ∀ (k : Nat) (f : Bytes), fs[k]? = some f → ∃ p e, parts[k]? = some p ∧ es[k]? = some e ∧ CallOf (sentFor defs f) p e := by
  induction h with
  | done => exact ⟨[], rfl, rfl, rfl, fun k f hk => by cases hk⟩
  | @call f fs as as' e es fuel fails h1 h2 _ ih =>
    obtain ⟨parts, e1, e2, e3, e4⟩ := ih
    refine ⟨as :: parts, by rw [e1]; rfl, by simp [e2], by simp [e3], ?_⟩
    intro k g hk
    cases k with
    | succ k => exact e4 k g hk
    | zero =>
      cases hk
      refine ⟨as, e, rfl, rfl, ?_⟩
      have key : ∃ rs, rs = sentFor defs f ∧ ∀ fuel log fails, f.length < fuel →
          writeFrameFor fuel defs fails log f = some (.ret (Hid.outcome fails log rs)) := by
        by_cases hf : f = []
        · subst hf
          refine ⟨[], rfl, fun fuel log fails hl => ?_⟩
          cases fuel with
          | zero => exact absurd hl (by simp)
          | succ fuel => rfl
        · obtain ⟨rs, _, _, k1, k2⟩ := written_chunks hg hf
          exact ⟨rs, ((k2 _).1 (sentFor_written hg hf)).symm, k1⟩
      obtain ⟨rs, hrs, hw⟩ := key
      have hm := writeFrameLoop_mono (Nat.le_max_left fuel (f.length + 1)) h1
      have hm' := hw (max fuel (f.length + 1)) [] fails (by omega)
      rw [writeFrameFor] at hm'
      rw [hm'] at hm
      simp only [Option.some.injEq, Out.ret.injEq] at hm
      obtain ⟨as1, x1, q1, q2, q3⟩ := outcome_callOf fails [] rs
      obtain ⟨g1, g2⟩ := q3 as e (by rw [hm]; simp) (by simpa using h2)
      rw [g1, g2, ← hrs]
      exact q2

/-- C124, what the calls return, for usable tables: the attempts of a goroutine are those of its calls one after the other; a call hands
over all reports of its frame, all are taken and it returns nil, or it hands over reports up to one that is refused and returns just
that error. -/
theorem C124_calls (defs : List ReportDef) (hg : GoodTable defs) (fails : Fails) (frames : List (List Bytes)) (schedule : List Nat)
    (s : Callers) (hs : s = (Callers.start frames).run defs fails schedule) (hf : s.finished) (i : Nat) (fs : List Bytes)
    (hi : frames[i]? = some fs) :
    ∃ (w : Caller) (parts : List (List (Report × Option Err))), s.all[i]? = some w ∧ ofGoroutine i s.attempts = parts.flatten ∧ parts.length = fs.length ∧ w.returned.length = fs.length ∧
      ∀ (k : Nat) (f : Bytes), fs[k]? = some f → ∃ p e, parts[k]? = some p ∧ w.returned[k]? = some e ∧ CallOf (sentFor defs f) p e := by
  obtain ⟨w, h1, h2⟩ := C124_alone defs fails frames schedule s hs hf i fs hi
  obtain ⟨parts, h3, h4, h5, h6⟩ := alone_calls hg h2
  exact ⟨w, parts, h1, h3, h4, h5, h6⟩

example (schedule : List Nat) (hf : ((Callers.start [[[0x55, 0x02]], [[0x57], [0x58]]]).run defaultReportDefs
      (fun k => if k = 0 then some .noProgress else none) schedule).finished) :
    ∃ w, ((Callers.start [[[0x55, 0x02]], [[0x57], [0x58]]]).run defaultReportDefs
      (fun k => if k = 0 then some .noProgress else none) schedule).all[1]? = some w ∧ w.returned.length = 2 := by
  obtain ⟨w, _, h, _, _, hl, _⟩ := C124_calls defaultReportDefs goodTable_default (fun k => if k = 0 then some .noProgress else none)
    [[[0x55, 0x02]], [[0x57], [0x58]]] schedule _ rfl hf 1 [[0x57], [0x58]] rfl
  exact ⟨w, h, hl⟩

theorem round_no_panic {defs : List ReportDef} (hg : GoodTable defs) (d : Bytes) (o b : Nat) : encodeRound defs d o b ≠ .panic := by
  unfold encodeRound
  by_cases h0 : b = 0
  · rw [if_pos h0]; exact fun h => by cases h
  · rw [if_neg h0]
    cases hp : pick defs b .accIn with
    | none => exact fun h => by cases h
    | some rd =>
      have := hg.carries rd (pick_some hp).1
      have hm : rd.maxPayload = rd.len - 1 := rfl
      simp only [if_neg (show ¬ rd.maxPayload < 0 by omega)]
      exact fun h => by cases h

/-- C124, no panics with usable tables, whatever is refused. -/
theorem C124_no_panic (defs : List ReportDef) (hg : GoodTable defs) (fails : Fails) (frames : List (List Bytes)) (schedule : List Nat) :
    ((Callers.start frames).run defs fails schedule).crashed = false := by
  have key : ∀ (sch : List Nat) (s : Callers), s.crashed = false → (s.run defs fails sch).crashed = false := by
    intro sch
    induction sch with
    | nil => exact fun s h => h
    | cons i sch ih =>
      intro s h
      rw [callers_again]
      apply ih
      rw [Callers.step, if_neg (by rw [h]; decide)]
      cases s.all[i]? with
      | none => exact h
      | some w =>
        obtain ⟨call, frames, returned⟩ := w
        cases call with
        | none => cases frames <;> exact h
        | some v =>
          obtain ⟨d, o, b⟩ := v
          simp only
          cases hr : encodeRound defs d o b with
          | panic => exact absurd hr (round_no_panic hg d o b)
          | done => exact h
          | refused e => exact h
          | report r o' b' =>
            simp only
            cases fails s.attempts.length <;> exact h
  exact key schedule _ rfl

example (schedule : List Nat) : ((Callers.start [[[0x55, 0x02]], [[0x57]]]).run legacyReportDefs
    (fun k => if k = 0 then some .noProgress else none) schedule).crashed = false :=
  C124_no_panic _ goodTable_legacy _ _ _

/-- How many steps a goroutine needs at most. -/
def stepsLeft (w : Caller) : Nat :=
  (match w.call with | none => 0 | some (_, _, b) => b + 1) + (w.frames.map (·.length + 2)).sum

theorem round_shrinks {defs : List ReportDef} (hg : GoodTable defs) {d : Bytes} {o b o' b' : Nat} {r : Report}
    (h : encodeRound defs d o b = .report r o' b') : b' < b := by
  unfold encodeRound at h
  by_cases h0 : b = 0
  · rw [if_pos h0] at h; cases h
  · rw [if_neg h0] at h
    cases hp : pick defs b .accIn with
    | none => rw [hp] at h; cases h
    | some rd =>
      have := hg.carries rd (pick_some hp).1
      have hm : rd.maxPayload = rd.len - 1 := rfl
      simp only [hp, if_neg (show ¬ rd.maxPayload < 0 by omega), Round.report.injEq] at h
      rw [← h.2.2]
      split <;> omega

/-- C124, all calls end: goroutines that get enough turns, in any order, finish, whatever is refused. -/
theorem C124_ends (defs : List ReportDef) (hg : GoodTable defs) (fails : Fails) (frames : List (List Bytes)) (schedule : List Nat)
    (h : ∀ (i : Nat) (fs : List Bytes), frames[i]? = some fs → (fs.map (·.length + 2)).sum ≤ schedule.count i) :
    ((Callers.start frames).run defs fails schedule).finished := by
  refine ⟨C124_no_panic defs hg fails frames schedule, ?_⟩
  have key : ∀ (sch : List Nat) (s : Callers), s.crashed = false →
      (∀ (i : Nat) (w : Caller), s.all[i]? = some w → stepsLeft w ≤ sch.count i) →
      ∀ w ∈ (s.run defs fails sch).all, w.call = none ∧ w.frames = [] := by
    intro sch
    induction sch with
    | nil =>
      intro s _ hs w hw
      change w ∈ s.all at hw
      obtain ⟨i, hi, rfl⟩ := List.getElem_of_mem hw
      have := hs i _ (List.getElem?_eq_getElem hi)
      simp only [List.count_nil, Nat.le_zero, stepsLeft, Nat.add_eq_zero_iff] at this
      obtain ⟨h1, h2⟩ := this
      constructor
      · cases hc : s.all[i].call with
        | none => rfl
        | some v => rw [hc] at h1; simp at h1
      · cases hf : s.all[i].frames with
        | nil => rfl
        | cons f fs => rw [hf] at h2; simp at h2
    | cons i sch ih =>
      intro s hc hs
      rw [callers_again]
      -- all others keep their steps, goroutine `i` has used one
      have next : ∀ (w w' : Caller) (l : List (Nat × Report × Option Err)), s.all[i]? = some w → stepsLeft w' + 1 ≤ stepsLeft w →
          ∀ (j : Nat) (x : Caller), (⟨s.all.set i w', l, s.crashed⟩ : Callers).all[j]? = some x → stepsLeft x ≤ sch.count j := by
        intro w w' l hw hm j x hx
        have hlt : i < s.all.length := (List.getElem?_eq_some_iff.1 hw).1
        simp only [List.getElem?_set] at hx
        by_cases hij : i = j
        · subst hij
          rw [if_pos rfl, if_pos hlt] at hx
          cases hx
          have := hs i w hw
          rw [List.count_cons_self] at this
          omega
        · rw [if_neg hij] at hx
          have := hs j x hx
          rwa [List.count_cons_of_ne hij] at this
      have stay : (∀ w, s.all[i]? = some w → stepsLeft w = 0) →
          ∀ (j : Nat) (x : Caller), s.all[j]? = some x → stepsLeft x ≤ sch.count j := by
        intro h0 j x hx
        by_cases hij : i = j
        · subst hij; rw [h0 x hx]; exact Nat.zero_le _
        · have := hs j x hx
          rwa [List.count_cons_of_ne hij] at this
      rw [Callers.step, if_neg (by rw [hc]; decide)]
      cases hw : s.all[i]? with
      | none => exact ih s hc (stay fun w h => by rw [hw] at h; cases h)
      | some w =>
        obtain ⟨call, frames, returned⟩ := w
        cases call with
        | none =>
          cases frames with
          | nil => exact ih s hc (stay fun w h => by rw [hw] at h; cases h; rfl)
          | cons f fs =>
            exact ih _ hc (next _ _ _ hw (by simp only [stepsLeft, List.map_cons, List.sum_cons]; omega))
        | some v =>
          obtain ⟨d, o, b⟩ := v
          simp only
          cases hr : encodeRound defs d o b with
          | panic => exact absurd hr (round_no_panic hg d o b)
          | done => exact ih _ hc (next _ _ _ hw (by simp only [stepsLeft]; omega))
          | refused e => exact ih _ hc (next _ _ _ hw (by simp only [stepsLeft]; omega))
          | report r o' b' =>
            have := round_shrinks hg hr
            simp only
            cases fails s.attempts.length with
            | none => exact ih _ hc (next _ _ _ hw (by simp only [stepsLeft]; omega))
            | some e => exact ih _ hc (next _ _ _ hw (by simp only [stepsLeft]; omega))
  refine key schedule _ rfl fun i w hw => ?_
  simp only [Callers.start, List.getElem?_map, Option.map_eq_some_iff] at hw
  obtain ⟨fs, hi, rfl⟩ := hw
  have := h i fs hi
  simpa [stepsLeft] using this

/-- Five turns for the first and six for the second are enough. -/
example (fails : Fails) : ((Callers.start [[[1, 2, 3]], [[4], [5]]]).run [⟨1, 3, .accIn⟩] fails [1, 0, 0, 1, 0, 1, 1, 0, 1, 0, 1]).finished :=
  C124_ends _ ⟨by decide, by decide, by decide, by decide⟩ fails _ _ (by
    intro i fs h
    match i, h with
    | 0, h => simp at h; subst h; decide
    | 1, h => simp at h; subst h; decide
    | n + 2, h => simp at h)

/-- Two goroutines, the second report refused: the first of them, which handed it over, gets the error; the other does not. -/
example : ((Callers.start [[[1, 2, 3]], [[4], [5]]]).run [⟨1, 3, .accIn⟩] (fun k => if k = 1 then some (.other 7) else none)
      [0, 0, 1, 0, 1, 1, 1, 1, 1]).attempts =
      [(0, ⟨1, 2, [1, 2]⟩, none), (0, ⟨1, 1, [3, 0]⟩, some (.other 7)), (1, ⟨1, 0, [4, 0]⟩, none), (1, ⟨1, 0, [5, 0]⟩, none)] ∧
    ((Callers.start [[[1, 2, 3]], [[4], [5]]]).run [⟨1, 3, .accIn⟩] (fun k => if k = 1 then some (.other 7) else none)
      [0, 0, 1, 0, 1, 1, 1, 1, 1]).all.map (·.returned) = [[some (.other 7)], [none, none]] := by decide +kernel

end Props
