import Verif.Spec.Confirmed
import Verif.Props.Callers
import Verif.Props.Loss

/-! # Property C125: what arrives of frames of which reports are refused -/

namespace Props
open Go Spec Ipod Hid

/-! ## C125 -/

theorem notRefused_append (a b : List (Report × Option Err)) : notRefused (a ++ b) = notRefused a ++ notRefused b := by simp [notRefused]

theorem notRefused_all (rs : List Report) : notRefused (rs.map (·, none)) = rs := by
  induction rs with
  | nil => rfl
  | cons r rs ih => simpa [notRefused] using ih

/-- The calls as transfers: what was taken of each. -/
theorem calls_transfers {defs : List ReportDef} (hg : GoodTable defs) {fs : List Bytes} {parts : List (List (Report × Option Err))}
    {es : List (Option Err)} (h1 : parts.length = fs.length) (h2 : es.length = fs.length)
    (h : ∀ (k : Nat) (f : Bytes), fs[k]? = some f → ∃ p e, parts[k]? = some p ∧ es[k]? = some e ∧ CallOf (sentFor defs f) p e) :
    ∃ ts : List Transfer, (∀ t ∈ ts, Sent defs t) ∧ (∀ t ∈ ts, t.Complete ∨ t.EndLost) ∧ ts.flatMap (·.got) = notRefused parts.flatten ∧
      ∀ gs, Intact ts gs → Confirmed (fs.zip es) gs := by
  induction fs generalizing parts es with
  | nil =>
    obtain rfl : parts = [] := List.eq_nil_of_length_eq_zero h1
    obtain rfl : es = [] := List.eq_nil_of_length_eq_zero h2
    exact ⟨[], by simp, by simp, rfl, fun gs hg => by cases hg; exact .nil⟩
  | cons f fs ih =>
    cases parts with
    | nil => cases h1
    | cons p parts =>
      cases es with
      | nil => cases h2
      | cons e es =>
        obtain ⟨ts, t1, t2, t3, t4⟩ := ih (by simpa using h1) (by simpa using h2) fun k g hk => h (k + 1) g hk
        obtain ⟨p', e', h3, h4, h5⟩ := h 0 f rfl
        cases h3; cases h4
        simp only [List.flatten_cons, notRefused_append, List.zip_cons_cons]
        by_cases hf : f = []
        · subst hf
          have hs : sentFor defs [] = [] := rfl
          rw [hs] at h5
          generalize hx : ([] : List Report) = rs at h5
          cases h5 with
          | taken =>
            subst hx
            exact ⟨ts, t1, t2, by rw [t3]; rfl, fun gs hi => .empty (t4 gs hi)⟩
          | refused pre post r e => simp at hx
        · have hw := sentFor_written hg hf
          generalize sentFor defs f = rs at h5 hw
          cases h5 with
          | taken =>
            refine ⟨⟨f, rs, rs⟩ :: ts, ?_, ?_, ?_, ?_⟩
            · intro t ht
              rcases List.mem_cons.1 ht with rfl | ht
              · exact ⟨hf, hw, List.Sublist.refl _⟩
              · exact t1 t ht
            · intro t ht
              rcases List.mem_cons.1 ht with rfl | ht
              · exact .inl rfl
              · exact t2 t ht
            · rw [List.flatMap_cons, t3, notRefused_all]
            · intro gs hi
              cases hi with
              | whole _ hz hi => exact .sent hf hz (t4 _ hi)
              | lost hn _ => exact absurd rfl hn
          | refused pre post r e =>
            have hlost : pre.Sublist (pre ++ r :: post).dropLast := by
              rw [List.dropLast_append_of_ne_nil (by simp)]
              exact List.sublist_append_left _ _
            refine ⟨⟨f, pre ++ r :: post, pre⟩ :: ts, ?_, ?_, ?_, ?_⟩
            · intro t ht
              rcases List.mem_cons.1 ht with rfl | ht
              · exact ⟨hf, hw, List.sublist_append_left _ _⟩
              · exact t1 t ht
            · intro t ht
              rcases List.mem_cons.1 ht with rfl | ht
              · exact .inr hlost
              · exact t2 t ht
            · rw [List.flatMap_cons, t3, notRefused_append, notRefused_all]
              simp [notRefused]
            · intro gs hi
              cases hi with
              | whole hc _ _ =>
                have : pre = pre ++ r :: post := hc
                have := congrArg List.length this
                simp at this
              | lost _ hi => exact .refused (t4 gs hi)

theorem alone_received {defs : List ReportDef} (hg : GoodTable defs) {fs : List Bytes} {as : List (Report × Option Err)}
    {es : List (Option Err)} (h : Alone defs fs as es) (grow : Growth) (buf : Slice) :
    ∃ gs, Confirmed (fs.zip es) gs ∧ ∀ k, readFrames grow defs (gs.length + k) ((notRefused as).map .ok) buf =
      .ret (gs.map .ok ++ List.replicate k (.error .eof)) := by
  obtain ⟨parts, rfl, h2, h3, h4⟩ := alone_calls hg h
  obtain ⟨ts, t1, t2, t3, t4⟩ := calls_transfers hg h2 h3 h4
  obtain ⟨gs, g1, g2⟩ := C94_loss_partial grow defs hg ts t1 t2 buf
  refine ⟨gs, t4 gs g1, fun k => ?_⟩
  have : arrived ts = (ts.flatMap (·.got)).map .ok := by simp [arrived, List.map_flatMap]
  rw [← t3, ← this]
  exact g2 k

/-! ### goroutines that exclude each other -/

/-- What is to come of goroutines of which one at most is in a call: calls in some order, those of each goroutine in its order, made as
if by one goroutine. -/
def Ordered (defs : List ReportDef) (s fin : Callers) (cur : Option (Bytes × Nat × Nat)) : Prop :=
  ∃ (log : List (Nat × Report × Option Err)) (order : List (Nat × Bytes × Option Err)) (e0 : List (Option Err)) (ws : List (List (Bytes × Option Err))),
    fin.attempts = s.attempts ++ log ∧ Ahead defs cur (order.map (·.2.1)) (log.map (·.2)) (e0 ++ order.map (·.2.2)) ∧
    e0.length = (if cur.isSome then 1 else 0) ∧ Mixed (tagged ws) order ∧ ws.length = s.all.length ∧
    ∀ (j : Nat) (w : Caller), s.all[j]? = some w → ∃ q, ws[j]? = some q ∧ q.map (·.1) = w.frames ∧
      (fin.all[j]?).map (·.returned) = some (w.returned ++ (if w.call.isSome then e0 else []) ++ q.map (·.2))

theorem run_locked {defs : List ReportDef} (hg : GoodTable defs) {fails : Fails} (schedule : List Nat) {s : Callers}
    (hl : Locked defs fails s schedule) (hf : (s.run defs fails schedule).finished) (i : Nat)
    (hn : ∀ (j : Nat) (w : Caller), j ≠ i → s.all[j]? = some w → w.call = none) :
    Ordered defs s (s.run defs fails schedule) ((s.all[i]?).bind (·.call)) := by
  induction schedule generalizing s i with
  | nil =>
    have hf' : s.finished := hf
    have hcur : (s.all[i]?).bind (·.call) = none := by
      cases hx : s.all[i]? with
      | none => rfl
      | some w => exact (hf'.2 w (List.mem_of_getElem? hx)).1
    rw [hcur]
    refine ⟨[], [], [], s.all.map fun _ => [], by simp [Callers.run], .done, rfl, .done ?_, by simp, ?_⟩
    · intro w hw
      obtain ⟨i, hi, rfl⟩ := List.getElem_of_mem hw
      have := List.getElem?_eq_getElem hi
      rw [tagged_get, List.getElem?_map, Option.map_map] at this
      cases hx : s.all[i]? with
      | none => rw [hx] at this; cases this
      | some y => rw [hx] at this; simpa using this.symm
    · intro j w hw
      obtain ⟨h1, h2⟩ := hf'.2 w (List.mem_of_getElem? hw)
      refine ⟨[], by simp [hw], by simp [h2], ?_⟩
      show (s.all[j]?).map _ = _
      rw [hw, h1]; simp
  | cons k schedule ih =>
    obtain ⟨hk, hl⟩ := hl
    rw [callers_again] at hf ⊢
    -- the one that may be in a call is the one that makes the step
    have hcur : (s.all[i]?).bind (·.call) = (s.all[k]?).bind (·.call) := by
      by_cases hik : i = k
      · rw [hik]
      · have h1 : (s.all[i]?).bind (·.call) = none := by
          cases hx : s.all[i]? with
          | none => rfl
          | some w => exact hk i w hik hx
        have h2 : (s.all[k]?).bind (·.call) = none := by
          cases hx : s.all[k]? with
          | none => rfl
          | some w => exact hn k w (Ne.symm hik) hx
        rw [h1, h2]
    rw [hcur]
    clear hcur hn i
    generalize hfin : ((s.step defs fails k).run defs fails schedule) = fin at hf ⊢
    have stay : s.step defs fails k = s → Ordered defs s fin ((s.all[k]?).bind (·.call)) := by
      intro he
      rw [he] at hl hfin
      rw [← hfin]
      exact ih hl (by rw [hfin]; exact hf) k hk
    by_cases hc : s.crashed = true
    · exact stay (by rw [Callers.step, if_pos hc])
    cases hw : s.all[k]? with
    | none => have := stay (by rw [Callers.step, if_neg hc]; simp only [hw]); rwa [hw] at this
    | some w =>
      obtain ⟨hlt, _⟩ := List.getElem?_eq_some_iff.1 hw
      have put : ∀ w' : Caller, (s.all.set k w')[k]? = some w' := fun w' => by rw [List.getElem?_set, if_pos rfl, if_pos hlt]
      -- the step replaces `w` by `w'`
      have moved : ∀ (w' : Caller) (l : List (Nat × Report × Option Err)),
          s.step defs fails k = ⟨s.all.set k w', l, s.crashed⟩ → Ordered defs ⟨s.all.set k w', l, s.crashed⟩ fin w'.call := by
        intro w' l he
        rw [he] at hl hfin
        have hj : ∀ (j : Nat) (x : Caller), j ≠ k → (s.all.set k w')[j]? = some x → x.call = none := by
          intro j x hjk hx
          rw [List.getElem?_set, if_neg (Ne.symm hjk)] at hx
          exact hk j x hjk hx
        have := ih hl (by rw [hfin]; exact hf) k hj
        rw [hfin] at this
        simpa only [List.getElem?_set, if_true, hlt, Option.bind_some] using this
      -- a call returns
      have ends : ∀ (d : Bytes) (o b : Nat) (e : Option Err) (l : List (Nat × Report × Option Err)), w.call = some (d, o, b) →
          (∀ fs as es, Ahead defs none fs as es → Ahead defs (some (d, o, b)) fs (l.map (·.2) ++ as) (e :: es)) →
          s.step defs fails k = ⟨s.all.set k ⟨none, w.frames, w.returned ++ [e]⟩, s.attempts ++ l, s.crashed⟩ →
          Ordered defs s fin ((some w).bind (·.call)) := by
        intro d o b e l hcall ha he
        obtain ⟨log, order, e0, ws, k1, k2, k3, k4, k5, k6⟩ := moved _ _ he
        obtain rfl : e0 = [] := List.eq_nil_of_length_eq_zero k3
        refine ⟨l ++ log, order, [e], ws, by rw [k1]; simp, ?_, ?_, k4, by simpa using k5, ?_⟩
        · rw [Option.bind_some, hcall, List.map_append]
          exact ha _ _ _ (by simpa using k2)
        · rw [Option.bind_some, hcall]; rfl
        · intro j x hx
          by_cases hjk : k = j
          · subst hjk
            rw [hw] at hx
            cases hx
            obtain ⟨q, q1, q2, q3⟩ := k6 k _ (put _)
            exact ⟨q, q1, q2, by rw [q3, hcall]; simp⟩
          · obtain ⟨q, q1, q2, q3⟩ := k6 j x (by simp only [List.getElem?_set, if_neg hjk]; exact hx)
            refine ⟨q, q1, q2, ?_⟩
            rw [q3, hk j x (Ne.symm hjk) hx]
            rfl
      obtain ⟨call, frames, returned⟩ := w
      cases call with
      | none =>
        cases frames with
        | nil => have := stay (by rw [Callers.step, if_neg hc]; simp only [hw]); rwa [hw] at this
        | cons f fs =>
          obtain ⟨log, order, e0, ws, k1, k2, k3, k4, k5, k6⟩ := moved ⟨some (f, 0, f.length), fs, returned⟩ s.attempts
            (by rw [Callers.step, if_neg hc]; simp only [hw])
          obtain ⟨e, rfl⟩ : ∃ e, e0 = [e] := List.length_eq_one_iff.1 k3
          obtain ⟨q, q1, q2, q3⟩ := k6 k _ (put _)
          have hq : k < ws.length := (List.getElem?_eq_some_iff.1 q1).1
          refine ⟨log, (k, f, e) :: order, [], ws.set k ((f, e) :: q), k1, .start (by simpa using k2), rfl, ?_, by simpa using k5, ?_⟩
          · refine .step k (l := q.map (k, ·)) ?_ ?_
            · rw [tagged_get, List.getElem?_set, if_pos rfl, if_pos hq]; rfl
            · rw [tagged_set, List.set_set]
              have : (tagged ws)[k]? = some (q.map (k, ·)) := by rw [tagged_get, q1]; rfl
              rw [set_same this]
              exact k4
          · intro j x hx
            by_cases hjk : k = j
            · subst hjk
              rw [hw] at hx
              cases hx
              refine ⟨(f, e) :: q, by rw [List.getElem?_set, if_pos rfl, if_pos hq], by simpa using q2, ?_⟩
              rw [q3]; simp
            · obtain ⟨q', q1', q2', q3'⟩ := k6 j x (by simp only [List.getElem?_set, if_neg hjk]; exact hx)
              refine ⟨q', by rw [List.getElem?_set, if_neg hjk]; exact q1', q2', ?_⟩
              rw [q3', hk j x (Ne.symm hjk) hx]
              rfl
      | some v =>
        obtain ⟨d, o, b⟩ := v
        cases hr : encodeRound defs d o b with
        | panic => exact absurd hr (round_no_panic hg d o b)
        | done =>
          exact ends d o b none [] rfl (fun fs as es ha => .finish hr ha) (by rw [Callers.step, if_neg hc]; simp only [hw, hr, List.append_nil])
        | refused e =>
          exact ends d o b (some e) [] rfl (fun fs as es ha => .noReport hr ha)
            (by rw [Callers.step, if_neg hc]; simp only [hw, hr, List.append_nil])
        | report r o' b' =>
          cases hx : fails s.attempts.length with
          | some e =>
            exact ends d o b (some e) [(k, r, some e)] rfl (fun fs as es ha => .refused hr ha)
              (by rw [Callers.step, if_neg hc]; simp only [hw, hr, hx])
          | none =>
            obtain ⟨log, order, e0, ws, k1, k2, k3, k4, k5, k6⟩ := moved ⟨some (d, o', b'), frames, returned⟩ (s.attempts ++ [(k, r, none)])
              (by rw [Callers.step, if_neg hc]; simp only [hw, hr, hx])
            refine ⟨(k, r, none) :: log, order, e0, ws, by rw [k1]; simp, .taken hr k2, k3, k4, by simpa using k5, ?_⟩
            intro j x hx
            by_cases hjk : k = j
            · subst hjk
              rw [hw] at hx
              cases hx
              obtain ⟨q, q1, q2, q3⟩ := k6 k _ (put _)
              exact ⟨q, q1, q2, by rw [q3]; rfl⟩
            · exact k6 j x (by simp only [List.getElem?_set, if_neg hjk]; exact hx)

theorem zip_parts {α β : Type} (q : List (α × β)) : (q.map (·.1)).zip (q.map (·.2)) = q := by
  induction q with
  | nil => rfl
  | cons a q ih => simp [ih]

/-- C125. Goroutines that exclude each other in their calls of `WriteFrame`, any reports of which may be refused: the other side gets
the frames of the calls that returned nil, in the order of the calls, and nothing else. -/
theorem C125_received (defs : List ReportDef) (hg : GoodTable defs) (fails : Fails) (frames : List (List Bytes)) (schedule : List Nat)
    (hl : Locked defs fails (Callers.start frames) schedule) (s : Callers) (hs : s = (Callers.start frames).run defs fails schedule)
    (hf : s.finished) (grow : Growth) (buf : Slice) :
    ∃ (calls : List (Nat × Bytes × Option Err)) (gs : List Bytes),
      Mixed (tagged (List.zipWith (fun fs w => fs.zip w.returned) frames s.all)) calls ∧ Confirmed (calls.map (·.2)) gs ∧
      ∀ k, readFrames grow defs (gs.length + k) ((notRefused (s.attempts.map (·.2))).map .ok) buf =
        .ret (gs.map .ok ++ List.replicate k (.error .eof)) := by
  have hall : ∀ (j : Nat) (w : Caller), (Callers.start frames).all[j]? = some w →
      ∃ fs, frames[j]? = some fs ∧ w = ⟨none, fs, []⟩ := by
    intro j w hw
    simp only [Callers.start, List.getElem?_map, Option.map_eq_some_iff] at hw
    obtain ⟨fs, h1, rfl⟩ := hw
    exact ⟨fs, h1, rfl⟩
  obtain ⟨log, order, e0, ws, k1, k2, k3, k4, k5, k6⟩ := run_locked hg schedule hl (by rw [← hs]; exact hf) 0 (by
    intro j w _ hw
    obtain ⟨fs, _, rfl⟩ := hall j w hw
    rfl)
  have hcur : ((Callers.start frames).all[0]?).bind (·.call) = none := by
    cases hx : (Callers.start frames).all[0]? with
    | none => rfl
    | some w => obtain ⟨fs, _, rfl⟩ := hall 0 w hx; rfl
  rw [hcur] at k2 k3
  obtain rfl : e0 = [] := List.eq_nil_of_length_eq_zero k3
  rw [← hs] at k1 k6
  have hws : ws = List.zipWith (fun fs w => fs.zip w.returned) frames s.all := by
    apply List.ext_getElem?
    intro j
    rw [List.getElem?_zipWith]
    cases hfj : frames[j]? with
    | none =>
      have : ws.length ≤ j := by
        rw [k5]
        simpa [Callers.start] using hfj
      rw [List.getElem?_eq_none this]
    | some fs =>
      obtain ⟨q, q1, q2, q3⟩ := k6 j ⟨none, fs, []⟩ (by simp [Callers.start, hfj])
      cases hsj : s.all[j]? with
      | none => rw [hsj] at q3; cases q3
      | some w =>
        rw [hsj] at q3
        have hr : w.returned = q.map (·.2) := by simpa using q3
        have hq : q.map (·.1) = fs := q2
        rw [q1]
        simp only [hr, ← hq, zip_parts]
  obtain ⟨gs, g1, g2⟩ := alone_received hg (ahead_iff.1 k2) grow buf
  refine ⟨order, gs, hws ▸ k4, ?_, ?_⟩
  · have := zip_parts (order.map (·.2))
    simp only [List.map_map] at this
    simp only [List.nil_append] at g1
    rw [← this]
    exact g1
  · rw [k1]
    exact g2

theorem insisted_once {fs : List Bytes} {cs : List (Bytes × Option Err)} (h : Insisted fs cs) {gs : List Bytes} (hc : Confirmed cs gs)
    (hn : ∀ f ∈ fs, f ≠ []) : EachPadded fs gs := by
  induction h generalizing gs with
  | nil => cases hc; exact .nil
  | again _ ih => cases hc with | refused hc => exact ih hc hn
  | next _ ih =>
    cases hc with
    | sent _ hz hc => exact .cons hz (ih hc fun f hf => hn f (List.mem_cons_of_mem _ hf))
    | empty _ => exact absurd rfl (hn [] (by simp))

/-- C125, repeated calls: a caller that repeats every frame until `WriteFrame` returns nil has each of them delivered once, in order,
whatever was refused in between. -/
theorem C125_insisted (defs : List ReportDef) (hg : GoodTable defs) (fails : Fails) (calls : List Bytes) (schedule : List Nat)
    (w : Caller) (log : List (Nat × Report × Option Err))
    (hs : (Callers.start [calls]).run defs fails schedule = ⟨[w], log, false⟩) (hw : w.call = none ∧ w.frames = [])
    (fs : List Bytes) (hn : ∀ f ∈ fs, f ≠ []) (hi : Insisted fs (calls.zip w.returned)) (grow : Growth) (buf : Slice) :
    ∃ gs, EachPadded fs gs ∧ ∀ k, readFrames grow defs (gs.length + k) ((notRefused (log.map (·.2))).map .ok) buf =
      .ret (gs.map .ok ++ List.replicate k (.error .eof)) := by
  have hf : ((Callers.start [calls]).run defs fails schedule).finished := by
    rw [hs]
    exact ⟨rfl, fun x hx => by rw [List.mem_singleton.1 hx]; exact hw⟩
  obtain ⟨ass, lg, h1, h2, h3⟩ := run_facing schedule hf
  rw [hs] at h1 h2
  obtain ⟨as, es, e1, e2, e3⟩ := h1.2.2.2 0 _ rfl
  have hlen : ass.length = 1 := h1.2.1
  obtain ⟨a, rfl⟩ := List.length_eq_one_iff.1 hlen
  obtain rfl : a = as := by simpa using e1
  obtain rfl : w.returned = es := by simpa using e2
  have hlog : lg.map (·.2) = a := by
    have key : ∀ (a : List (Report × Option Err)) (lg : List (Nat × Report × Option Err)), Mixed (tagged [a]) lg → lg.map (·.2) = a := by
      intro a
      induction a with
      | nil =>
        intro lg hm
        cases hm with
        | done => rfl
        | step i hx =>
          cases i with
          | zero => simp [tagged] at hx
          | succ i => simp [tagged] at hx
      | cons x a ih =>
        intro lg hm
        cases hm with
        | done hd =>
          have := hd ((x :: a).map (0, ·)) (by simp [tagged])
          cases this
        | step i hx hm =>
          cases i with
          | zero =>
            simp only [tagged, List.mapIdx_cons, List.mapIdx_nil, List.map_cons, List.getElem?_cons_zero, Option.some.injEq, List.cons.injEq] at hx
            obtain ⟨rfl, rfl⟩ := hx
            have := ih _ hm
            simp [this]
          | succ i => simp [tagged] at hx
    exact key a lg h3
  obtain ⟨gs, g1, g2⟩ := alone_received hg (ahead_iff.1 e3) grow buf
  refine ⟨gs, insisted_once hi g1 hn, ?_⟩
  have h2' : log = lg := by simpa [Callers.start] using h2
  rw [h2', hlog]
  exact g2

/-- A frame refused at its second report and written again: one frame arrives. -/
example (grow : Growth) (buf : Slice) : ∃ gs, EachPadded [[1, 2, 3]] gs ∧ ∀ k, readFrames grow [⟨1, 3, .accIn⟩] (gs.length + k)
      ((notRefused [(⟨1, 2, [1, 2]⟩, none), (⟨1, 1, [3, 0]⟩, some (.other 7)), (⟨1, 2, [1, 2]⟩, none), (⟨1, 1, [3, 0]⟩, none)]).map .ok) buf =
      .ret (gs.map .ok ++ List.replicate k (.error .eof)) :=
  C125_insisted [⟨1, 3, .accIn⟩] ⟨by decide, by decide, by decide, by decide⟩ (fun k => if k = 1 then some (.other 7) else none)
    [[1, 2, 3], [1, 2, 3]] [0, 0, 0, 0, 0, 0, 0] ⟨none, [], [some (.other 7), none]⟩
    [(0, ⟨1, 2, [1, 2]⟩, none), (0, ⟨1, 1, [3, 0]⟩, some (.other 7)), (0, ⟨1, 2, [1, 2]⟩, none), (0, ⟨1, 1, [3, 0]⟩, none)]
    rfl ⟨rfl, rfl⟩ [[1, 2, 3]] (by simp) (.again (.next .nil)) grow buf

/-- Two goroutines that exclude each other: the frames arrive that were not refused. -/
example (grow : Growth) (buf : Slice) :
    let s := (Callers.start [[[1, 2, 3]], [[4], [5]]]).run [⟨1, 3, .accIn⟩] (fun k => if k = 2 then some (.other 7) else none)
      [1, 1, 1, 0, 0, 0, 1, 1, 1]
    ∃ (calls : List (Nat × Bytes × Option Err)) (gs : List Bytes),
      Mixed (tagged (List.zipWith (fun fs w => fs.zip w.returned) [[[1, 2, 3]], [[4], [5]]] s.all)) calls ∧ Confirmed (calls.map (·.2)) gs ∧
      ∀ k, readFrames grow [⟨1, 3, .accIn⟩] (gs.length + k) ((notRefused (s.attempts.map (·.2))).map .ok) buf =
        .ret (gs.map .ok ++ List.replicate k (.error .eof)) :=
  C125_received [⟨1, 3, .accIn⟩] ⟨by decide, by decide, by decide, by decide⟩ _ _ _ (by
      refine ⟨?_, ?_, ?_, ?_, ?_, ?_, ?_, ?_, ?_, trivial⟩ <;>
      · intro j w hj hw
        match j, hw, hj with
        | 0, hw, hj => first | exact absurd rfl hj | (cases hw; rfl)
        | 1, hw, hj => first | exact absurd rfl hj | (cases hw; rfl)
        | _ + 2, hw, _ => cases hw) _ rfl
    ⟨by decide +kernel, by
      intro w hw
      have : w = ⟨none, [], [some (.other 7)]⟩ ∨ w = ⟨none, [], [none, none]⟩ := by
        have hs : ((Callers.start [[[1, 2, 3]], [[4], [5]]]).run [⟨1, 3, .accIn⟩] (fun k => if k = 2 then some (.other 7) else none)
          [1, 1, 1, 0, 0, 0, 1, 1, 1]).all = [⟨none, [], [some (.other 7)]⟩, ⟨none, [], [none, none]⟩] := rfl
        rw [hs] at hw
        simpa using hw
      rcases this with rfl | rfl <;> exact ⟨rfl, rfl⟩⟩ grow buf

/-- A report that is refused but arrives nevertheless is another matter: its frame may arrive though `WriteFrame` returned an error, and
once more if it is written again. -/
example : readFrames (fun _ n => 2 * n) [⟨1, 3, .accIn⟩] 2 (([(⟨1, 2, [1, 2]⟩, none), (⟨1, 1, [3, 0]⟩, some (.other 7)), (⟨1, 2, [1, 2]⟩, none),
      (⟨1, 1, [3, 0]⟩, none)] : List (Report × Option Err)).map (.ok ·.1)) ⟨[], []⟩ = .ret [.ok [1, 2, 3, 0], .ok [1, 2, 3, 0]] := by
  decide +kernel

end Props
