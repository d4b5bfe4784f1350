import Verif.Spec.Course
import Verif.Lemmas.Unnoticed

/-! Lemmas about sessions in general. -/

namespace Ipod
open Go Spec Hid Trace Props

theorem raw_good (b : Bytes) : rawReadReport (good b) = rawOf b := by
  simp only [rawOf, rawReadReport, good, List.take_take, Nat.min_self]

/-- A call of `ReadFrame` that does not deliver a frame. -/
theorem loop_failed {grow : Growth} {defs : List ReportDef} (reads : List ReadRes) (buf : Slice)
    {rest' : List (Except Err Report)} {b' : Slice} {e : Err}
    (h : readFrameLoop grow defs (reads.map rawReadReport) buf = .ret (rest', b', .error e)) :
    (e = .eof ∧ ∃ bs, reads = bs.map good ∧ Unfinished defs bs) ∨
    (∃ used rest, reads = used ++ rest ∧ rest' = rest.map rawReadReport ∧ ReadCall defs used (.error e)) := by
  induction reads generalizing buf with
  | nil =>
    simp only [List.map_nil, readFrameLoop, Out.ret.injEq, Prod.mk.injEq, Except.error.injEq] at h
    exact .inl ⟨h.2.2.symm, [], rfl, unfinished_nil⟩
  | cons x reads ih =>
    obtain ⟨d, err⟩ := x
    cases err with
    | some e' =>
      right
      simp only [List.map_cons, rawReadReport, readFrameLoop, Out.ret.injEq, Prod.mk.injEq, Except.error.injEq] at h
      obtain ⟨rfl, _, rfl⟩ := h
      exact ⟨[⟨d, some e'⟩], reads, rfl, rfl, .failed (bs := []) unfinished_nil⟩
    | none =>
      have hx : rawReadReport ⟨d, none⟩ = rawOf d := raw_good d
      rw [List.map_cons, hx, rawOf_eq] at h
      cases hr : reportOf d with
      | none =>
        right
        rw [hr] at h
        simp only [readFrameLoop, Out.ret.injEq, Prod.mk.injEq, Except.error.injEq] at h
        obtain ⟨rfl, _, rfl⟩ := h
        exact ⟨[⟨d, none⟩], reads, rfl, rfl, .call (.notReport (bs := []) unfinished_nil hr)⟩
      | some r =>
        rw [hr] at h
        simp only at h
        cases hf : find defs r.id.toNat with
        | none =>
          right
          simp only [readFrameLoop, hf, Out.ret.injEq, Prod.mk.injEq, Except.error.injEq] at h
          obtain ⟨rfl, _, rfl⟩ := h
          exact ⟨[⟨d, none⟩], reads, rfl, rfl, .call (.unknown (bs := []) unfinished_nil hr (find_none.1 hf))⟩
        | some dd =>
          by_cases hm : dd.maxPayload < 0
          · simp only [readFrameLoop, hf, if_pos hm] at h; cases h
          have ha : Accepted defs r (r.data.take dd.maxPayload.toNat) := accepted_iff.2 ⟨dd, hf, by omega, rfl⟩
          rw [readFrameLoop_accepted grow defs r _ ha] at h
          simp only at h
          by_cases hE : Ends r
          · rw [if_pos hE] at h; cases h
          · rw [if_neg hE] at h
            rcases ih _ h with ⟨i1, bs, rfl, i2⟩ | ⟨used, rest, rfl, i2, i3⟩
            · exact .inl ⟨i1, d :: bs, rfl, unfinished_cons hr ⟨_, ha⟩ hE i2⟩
            · refine .inr ⟨⟨d, none⟩ :: used, rest, rfl, i2, ?_⟩
              cases i3 with
              | @failed bs d' e h1 => exact .failed (bs := d :: bs) (unfinished_cons hr ⟨_, ha⟩ hE h1)
              | @call bs x h1 =>
                cases h1 with
                | @notReport bs b h2 h3 => exact .call (bs := d :: (bs ++ [b])) (.notReport (bs := d :: bs) (unfinished_cons hr ⟨_, ha⟩ hE h2) h3)
                | @unknown bs b r' h2 h3 h4 =>
                  exact .call (bs := d :: (bs ++ [b])) (.unknown (bs := d :: bs) (unfinished_cons hr ⟨_, ha⟩ hE h2) h3 h4)

theorem raw_ok {x : ReadRes} {r : Report} (h : rawReadReport x = .ok r) : x = good x.data ∧ reportOf x.data = some r := by
  obtain ⟨d, err⟩ := x
  cases err with
  | some e => cases h
  | none => exact ⟨rfl, rawOf_ok.1 (by rw [← raw_good]; exact h)⟩

theorem raw_oks {reads : List ReadRes} {rs : List Report} (h : reads.map rawReadReport = rs.map .ok) :
    ∃ bs : List Bytes, reads = bs.map good ∧ bs.map reportOf = rs.map some := by
  induction reads generalizing rs with
  | nil =>
    cases rs with
    | nil => exact ⟨[], rfl, rfl⟩
    | cons => cases h
  | cons x reads ih =>
    cases rs with
    | nil => cases h
    | cons r rs =>
      simp only [List.map_cons, List.cons.injEq] at h
      obtain ⟨bs, rfl, h2⟩ := ih h.2
      obtain ⟨h3, h4⟩ := raw_ok h.1
      exact ⟨x.data :: bs, by rw [List.map_cons, ← h3], by rw [List.map_cons, List.map_cons, h4, h2]⟩

/-- A call of `ReadFrame` on the results of reads. -/
theorem loop_call {grow : Growth} {defs : List ReportDef} (reads : List ReadRes) (buf : Slice) (hb : buf.reset = buf)
    {rest' : List (Except Err Report)} {b' : Slice} {x : Except Err Slice}
    (h : readFrameLoop grow defs (reads.map rawReadReport) buf = .ret (rest', b', x)) :
    (x = .error .eof ∧ ∃ bs, reads = bs.map good ∧ Unfinished defs bs) ∨
    (∃ used rest, reads = used ++ rest ∧ rest' = rest.map rawReadReport ∧ ReadCall defs used (plain x)) := by
  cases x with
  | error e =>
    rcases loop_failed reads buf h with ⟨rfl, h1⟩ | h1
    · exact .inl ⟨rfl, h1⟩
    · exact .inr h1
  | ok f =>
    right
    obtain ⟨us, h1, h2⟩ := (C33_delivered_iff grow defs _ rest' buf f.data).1 ⟨b', f, by rw [readFrame, hb]; exact h, rfl⟩
    obtain ⟨used, rest, rfl, h3, h4⟩ := List.map_eq_append_iff.1 h1
    obtain ⟨bs, rfl, h5⟩ := raw_oks h3
    exact ⟨_, rest, rfl, h4.symm, .call (.frame h5 h2)⟩

theorem readCall_eof {defs : List ReportDef} {used : List ReadRes} (h : ReadCall defs used (.error .eof)) :
    ∃ x ∈ used, x.err = some .eof := by
  generalize hx : (Except.error Err.eof : Except Err Bytes) = y at h
  cases h with
  | call h => subst hx; cases h
  | failed h => cases hx; exact ⟨⟨_, some .eof⟩, List.mem_append_right _ (List.mem_singleton.2 rfl), rfl⟩

/-- Cutting any session at the calls of `ReadFrame`. -/
theorem session_cut {σ : Type} (D : Device σ) (clock : Clock) (grow : Growth) {defs : List ReportDef} (fails : Fails)
    (reads : List ReadRes) (l : Live σ) (log : List Report)
    {rest' : List (Except Err Report)} {b : Slice} {x : Except Err Slice}
    (h : readFrameLoop grow defs (reads.map rawReadReport) l.buf = .ret (rest', b, x)) :
    ((∀ r ∈ reads, r.err ≠ some .eof) ∧ x = .error .eof ∧ session D clock grow defs fails reads l log = reads.map .read ∧
      Live.run D clock grow defs reads l = .ret ({ l with buf := b }, true)) ∨
    (∃ used rest, reads = used ++ rest ∧ used ≠ [] ∧ rest' = rest.map rawReadReport ∧
      ((x = .error .eof ∧ (∃ r ∈ used, r.err = some .eof) ∧ session D clock grow defs fails reads l log = used.map .read ∧
          ∃ b', Live.run D clock grow defs reads l = .ret ({ l with buf := b' }, false)) ∨
        (x ≠ .error .eof ∧
          session D clock grow defs fails reads l log = used.map .read ++ afterCall D clock grow defs fails rest l log b x ∧
          Live.run D clock grow defs reads l = afterCallRun D clock grow defs rest l b x))) := by
  induction reads generalizing l with
  | nil =>
    left
    simp only [List.map_nil, readFrameLoop, Out.ret.injEq, Prod.mk.injEq] at h
    obtain ⟨_, rfl, rfl⟩ := h
    exact ⟨by simp, rfl, rfl, rfl⟩
  | cons r reads ih =>
    by_cases hr0 : r.err = some .eof
    · right
      have hraw : rawReadReport r = .error .eof := by
        obtain ⟨d, err⟩ := r
        simp only at hr0
        subst hr0
        rfl
      have ho : l.onRead D clock grow defs r = .ret none := onRead_none.2 hr0
      rw [List.map_cons, hraw] at h
      simp only [readFrameLoop, Out.ret.injEq, Prod.mk.injEq] at h
      obtain ⟨rfl, rfl, rfl⟩ := h
      refine ⟨[r], reads, rfl, by simp, rfl, .inl ⟨rfl, ⟨r, by simp, hr0⟩, ?_, l.buf, ?_⟩⟩
      · rw [session, ho]; rfl
      · rw [Live.run, ho]; rfl
    have hne := rawReadReport_eof hr0
    have step : ∀ l' : Live σ, l'.written = l.written → l.onRead D clock grow defs r = .ret (some l') →
        session D clock grow defs fails (r :: reads) l log = .read r :: session D clock grow defs fails reads l' log ∧
        Live.run D clock grow defs (r :: reads) l = Live.run D clock grow defs reads l' := by
      intro l' hw ho
      constructor
      · rw [session, ho]
        simp only [hw, List.drop_length, writeFrames_nil, writeOps, List.nil_append]
      · rw [Live.run, ho]; rfl
    rw [List.map_cons] at h
    cases hr : rawReadReport r with
    | error e =>
      right
      rw [hr] at h hne
      simp only [readFrameLoop, Out.ret.injEq, Prod.mk.injEq] at h
      obtain ⟨rfl, rfl, rfl⟩ := h
      have hee : e ≠ .eof := fun h => hne (by rw [h])
      obtain ⟨h1, h2⟩ := step { l with buf := l.buf.reset } rfl (by simp only [Live.onRead, hr]; rw [if_neg hee])
      exact ⟨[r], reads, rfl, by simp, rfl, .inr ⟨by simpa using hee, h1, h2⟩⟩
    | ok rep =>
      rw [hr] at h
      cases hf : find defs rep.id.toNat with
      | none =>
        right
        simp only [readFrameLoop, hf, Out.ret.injEq, Prod.mk.injEq] at h
        obtain ⟨rfl, rfl, rfl⟩ := h
        obtain ⟨h1, h2⟩ := step { l with buf := l.buf.reset } rfl (by simp only [Live.onRead, hr, hf])
        exact ⟨[r], reads, rfl, by simp, rfl, .inr ⟨by simp [Err.noReport], h1, h2⟩⟩
      | some d =>
        by_cases hm : d.maxPayload < 0
        · simp only [readFrameLoop, hf, if_pos hm] at h; cases h
        have ha : Accepted defs rep (rep.data.take d.maxPayload.toNat) := accepted_iff.2 ⟨d, hf, by omega, rfl⟩
        rw [readFrameLoop_accepted grow defs rep _ ha] at h
        have ho := onRead_accepted D clock grow defs hr ha l
        simp only at h ho
        generalize hb : (if Starts rep then l.buf.reset.write grow (rep.data.take d.maxPayload.toNat)
          else if Known rep then l.buf.write grow (rep.data.take d.maxPayload.toNat) else l.buf) = buf1 at h ho
        by_cases hE : Ends rep
        · right
          rw [if_pos hE] at h ho
          simp only [Out.ret.injEq, Prod.mk.injEq] at h
          obtain ⟨rfl, rfl, rfl⟩ := h
          refine ⟨[r], reads, rfl, by simp, rfl, .inr ⟨by simp, ?_, ?_⟩⟩
          · rw [session, ho, afterCall]
            cases l.frame D clock buf1 <;> rfl
          · rw [Live.run, ho, afterCallRun]
            cases l.frame D clock buf1 <;> rfl
        · rw [if_neg hE] at h ho
          obtain ⟨h1, h2⟩ := step { l with buf := buf1 } rfl ho
          rcases ih { l with buf := buf1 } h with ⟨i1, i2, i3, i4⟩ | ⟨used, rest, i2, i3, i4, i5⟩
          · left
            refine ⟨?_, i2, by rw [h1, i3]; rfl, by rw [h2, i4]⟩
            intro y hy
            rcases List.mem_cons.1 hy with rfl | hy
            · exact hr0
            · exact i1 y hy
          · right
            refine ⟨r :: used, rest, by rw [i2]; rfl, by simp, i4, ?_⟩
            rcases i5 with ⟨j1, ⟨y, j2, j3⟩, j4, b', j5⟩ | ⟨j1, j2, j3⟩
            · exact .inl ⟨j1, ⟨y, by simp [j2], j3⟩, by rw [h1, j4]; rfl, b', by rw [h2, j5]⟩
            · refine .inr ⟨j1, ?_, ?_⟩
              · rw [h1, j2]
                cases x with
                | error e => rfl
                | ok f => rfl
              · rw [h2, j3]
                cases x with
                | error e => rfl
                | ok f => rfl

/-! ### writes that may fail -/

theorem outcome_tried (fails : Fails) (log rs : List Report) :
    (Hid.outcome fails log rs).1 = log ++ rs.take (tried fails log.length rs) := by
  induction rs generalizing log with
  | nil => simp [Hid.outcome]
  | cons r rs ih =>
    rw [Hid.outcome, tried]
    cases hf : fails log.length with
    | some e => simp
    | none =>
      simp only [if_true, List.take_succ_cons]
      rw [ih]
      simp

theorem tried_le (fails : Fails) (i : Nat) (rs : List Report) : tried fails i rs ≤ rs.length := by
  induction rs generalizing i with
  | nil => simp [tried]
  | cons r rs ih =>
    rw [tried, List.length_cons]
    have := ih (i + 1)
    split <;> omega

/-- The reports of a frame and how many of them are handed to a device. -/
theorem carries_tried {defs : List ReportDef} (hg : GoodTable defs) (frame : Bytes) :
    ∃ rs, Carries defs frame rs ∧ ∀ fails log, ∃ e, writeFrameFor (frame.length + 1) defs fails log frame =
      some (.ret (log ++ rs.take (tried fails log.length rs), e)) := by
  obtain ⟨rs, h1, h2⟩ := carries_written hg frame
  refine ⟨rs, h1, fun fails log => ?_⟩
  by_cases hf : frame = []
  · subst hf
    rcases h1 with ⟨_, rfl⟩ | ⟨h, _⟩
    · exact ⟨none, by simp [writeFrameFor, writeFrameLoop]⟩
    · exact absurd rfl h
  · obtain ⟨rs', _, _, h3, _⟩ := written_chunks hg hf
    have e := h2 []
    rw [h3 _ _ _ (by omega), Hid.outcome_ok _ _ _ (fun _ _ => rfl)] at e
    simp only [List.nil_append, Option.some.injEq, Out.ret.injEq, Prod.mk.injEq, and_true] at e
    subst e
    exact ⟨(Hid.outcome fails log rs').2, by rw [h3 _ _ _ (by omega), ← outcome_tried]⟩

/-- The reports handed to the device for a list of answers. -/
def handed (fails : Fails) : Nat → List (List Report) → List Report
  | _, [] => []
  | i, rs :: rss => rs.take (tried fails i rs) ++ handed fails (i + tried fails i rs) rss

theorem writeFrames_handed {defs : List ReportDef} (hg : GoodTable defs) (ws : List Bytes) :
    ∃ rss : List (List Report), rss.length = ws.length ∧ (∀ p ∈ ws.zip rss, Carries defs p.1 p.2) ∧
      ∀ fails log, writeFrames defs fails log ws = .ret (log ++ handed fails log.length rss) := by
  induction ws with
  | nil => exact ⟨[], rfl, by simp, fun fails log => by simp [writeFrames, handed]⟩
  | cons w ws ih =>
    obtain ⟨rs, h1, h2⟩ := carries_tried hg w
    obtain ⟨rss, h3, h4, h5⟩ := ih
    refine ⟨rs :: rss, by simp [h3], ?_, fun fails log => ?_⟩
    · intro p hp
      simp only [List.zip_cons_cons, List.mem_cons] at hp
      rcases hp with rfl | hp
      · exact h1
      · exact h4 p hp
    · obtain ⟨e, h6⟩ := h2 fails log
      have hl : (rs.take (tried fails log.length rs)).length = tried fails log.length rs := by
        rw [List.length_take, Nat.min_eq_left (tried_le _ _ _)]
      simp only [writeFrames, h6, h5, handed, List.append_assoc, List.length_append, hl]

/-- What the tracer records of the reports of one answer. -/
theorem recorded_taken (fails : Fails) (i : Nat) (rs : List Report) (ops : List TOp) :
    recordedMsgs (writeOps fails i (rs.take (tried fails i rs)) ++ ops) =
      (taken fails i rs).map (fun r => ⟨1, 0, r.id :: r.linkControl :: r.data⟩) ++ recordedMsgs ops := by
  induction rs generalizing i with
  | nil => rfl
  | cons r rs ih =>
    rw [tried, taken]
    cases hf : fails i with
    | some e =>
      simp only [reduceCtorEq, if_false, List.take_succ_cons, List.take_zero, writeOps, hf, List.cons_append, List.nil_append,
        List.map_nil]
      rfl
    | none =>
      have := ih (i + 1)
      simp only [if_true, List.take_succ_cons, writeOps, hf, List.cons_append]
      simp only [recordedMsgs] at this ⊢
      rw [List.filterMap_cons]
      simp only [moved, List.take_length]
      rw [List.filter_cons_of_pos (by simp [rawReportBytes]), List.map_cons, this, List.map_cons]
      rfl

theorem writeOps_append (fails : Fails) (i : Nat) (a b : List Report) :
    writeOps fails i (a ++ b) = writeOps fails i a ++ writeOps fails (i + a.length) b := by
  induction a generalizing i with
  | nil => rfl
  | cons r a ih =>
    rw [List.cons_append, writeOps, writeOps, ih, List.cons_append, List.length_cons, Nat.add_right_comm, Nat.add_assoc i]

/-- What the tracer records of the answers to a frame. -/
theorem recorded_handed (fails : Fails) (i : Nat) (as : List Answer) (ops : List TOp) :
    recordedMsgs (writeOps fails i (handed fails i (as.map (·.reports))) ++ ops) =
      (takenAll fails i as).map (fun r => ⟨1, 0, r.id :: r.linkControl :: r.data⟩) ++ recordedMsgs ops := by
  induction as generalizing i with
  | nil => rfl
  | cons a as ih =>
    have hl : (a.reports.take (tried fails i a.reports)).length = tried fails i a.reports := by
      rw [List.length_take, Nat.min_eq_left (tried_le _ _ _)]
    rw [List.map_cons, handed, takenAll, writeOps_append, List.append_assoc, recorded_taken, hl, ih, List.map_append,
      List.append_assoc]

theorem handed_length (fails : Fails) (i : Nat) (as : List Answer) :
    (handed fails i (as.map (·.reports))).length = triedAll fails i as := by
  induction as generalizing i with
  | nil => rfl
  | cons a as ih =>
    rw [List.map_cons, handed, triedAll, List.length_append, List.length_take, Nat.min_eq_left (tried_le _ _ _), ih]

theorem answersOf_reports (m : Bool) (cmds : List Command) (rss : List (List Report)) (hl : rss.length = cmds.length) :
    (answersOf m cmds rss).map (·.reports) = rss := by
  rw [answersOf, List.map_map]
  induction cmds generalizing rss with
  | nil =>
    have : rss = [] := List.length_eq_zero_iff.1 (by simpa using hl)
    subst this; rfl
  | cons c cmds ih =>
    cases rss with
    | nil => cases hl
    | cons rs rss => rw [List.zip_cons_cons, List.map_cons, ih rss (by simpa using hl)]; rfl

/-! ### one frame -/

theorem frame_panics {σ : Type} (D : Device σ) (clock : Clock) (s : Srv σ) (f : Slice) (h : processFrame D clock s f = .panic) :
    Deadly s.mode f.spare f.data := by
  obtain ⟨pre, f', rest, s1, w, ps, b, h1, _, h2, h3, h4⟩ := (C54_panics_iff D clock [.ok f] s).1 (by
    rw [processFrames, h]; rfl)
  have hl := congrArg List.length h1
  cases pre with
  | cons x pre => simp only [List.length_cons, List.length_nil, List.length_append] at hl; omega
  | nil =>
    simp only [List.nil_append, List.cons.injEq, Except.ok.injEq] at h1
    obtain ⟨rfl, _⟩ := h1
    cases h2
    exact ⟨ps, b, h3, h4⟩

theorem frame_returns {σ : Type} {D : Device σ} {clock : Clock} {s : Srv σ} {f : Slice} {x : Srv σ × List Bytes}
    (h : processFrame D clock s f = .ret x) :
    ∃ ps m cmds c news, Scan f.spare f.data ps false ∧ Decoded s.mode ps m cmds ∧
      HandledEach D clock cmds { s.ctx with out := [] } c news ∧
      x = (⟨m, { c with out := [] }⟩, news.flatten.map fun x => frameOf (marshalCmd m x).2) := by
  obtain ⟨s', w⟩ := x
  obtain ⟨ps, m, cmds, c, news, rs, h1, h2, h3, h4, rfl, h5⟩ := processFrame_ret (d := f.data) (spare := f.spare) h
  obtain ⟨e1, rfl⟩ := encoded_const h4 (fun x hx => by
    obtain ⟨cmd, hc, a, b, new, hh, hx⟩ := handledEach_mem h3 x hx
    exact emitted_no_switch (decoded_received h2 cmd hc) hh x hx)
  refine ⟨ps, m, cmds, c, news, h1, h2, h3, ?_⟩
  obtain ⟨m', c'⟩ := s'
  simp only at e1 h5
  rw [e1, h5, List.map_map]
  rfl

/-! ### all of it -/

theorem loop_total {grow : Growth} {defs : List ReportDef} (hd : ∀ d ∈ defs, 0 ≤ d.maxPayload) (rs : List (Except Err Report))
    (buf : Slice) : ∃ x, readFrameLoop grow defs rs buf = .ret x := by
  induction rs generalizing buf with
  | nil => exact ⟨_, rfl⟩
  | cons r rs ih =>
    cases r with
    | error e => exact ⟨_, rfl⟩
    | ok r =>
      cases hf : find defs r.id.toNat with
      | none => exact ⟨_, by simp only [readFrameLoop, hf]; rfl⟩
      | some d =>
        have hm : 0 ≤ d.maxPayload := hd d (by
          obtain ⟨pre, post, h, _⟩ := find_some.1 hf
          rw [h]; simp)
        rw [readFrameLoop_accepted grow defs r _ (accepted_iff.2 ⟨d, hf, hm, rfl⟩)]
        simp only
        split
        · exact ⟨_, rfl⟩
        · exact ih _

/-- The run of a server that has written `w` before. -/
def Ends.after {σ : Type} (w : List Bytes) (es : List Visit) (fin : Ending σ) (x : Out (Live σ × Bool)) : Prop :=
  match fin with
  | .waits s _ => ∃ l, x = .ret (l, true) ∧ l.srv = s ∧ l.written = w ++ es.flatMap fun e => e.sent.map (·.frame)
  | .stops s _ => ∃ l, x = .ret (l, false) ∧ l.srv = s ∧ l.written = w ++ es.flatMap fun e => e.sent.map (·.frame)
  | .panics _ => x = .panic

theorem session_course {σ : Type} (D : Device σ) (clock : Clock) (grow : Growth) {defs : List ReportDef} (hg : GoodTable defs)
    (fails : Fails) (n : Nat) (reads : List ReadRes) (hn : reads.length = n) (l : Live σ) (hb : l.buf.reset = l.buf)
    (log : List Report) :
    ∃ es fin, Course D clock defs l.srv reads es fin ∧
      recordedMsgs (session D clock grow defs fails reads l log) = msgsOf (courseData fails log.length es fin.last) ∧
      Ends.after l.written es fin (Live.run D clock grow defs reads l) := by
  induction n using Nat.strongRecOn generalizing reads l log with
  | ind n ih =>
    subst hn
    have hmax : ∀ d ∈ defs, 0 ≤ d.maxPayload := fun d hd => by
      have := hg.carries d hd
      have e4 : d.maxPayload = d.len - 1 := rfl
      omega
    have hreads : ∀ us : List ReadRes, recordedMsgs (us.map .read) = msgsOf ((recordedData us).map ((0, ·))) := by
      intro us
      rw [← List.append_nil (us.map TOp.read), recordedMsgs_reads]
      simp only [recordedData, msgsOf, List.map_map]
      exact List.append_nil _
    obtain ⟨⟨rest', b, x⟩, h⟩ := loop_total (grow := grow) hmax (reads.map rawReadReport) l.buf
    rcases session_cut D clock grow fails reads l log h with ⟨h1, rfl, h2, h3⟩ | ⟨used, rest, rfl, h1, h2, h3⟩
    · rcases loop_call reads l.buf hb h with ⟨_, bs, rfl, h4⟩ | ⟨used, rest, rfl, _, h4⟩
      · exact ⟨[], .waits l.srv (bs.map good), .waits h4, by rw [h2, hreads]; rfl, _, h3, rfl, by simp⟩
      · obtain ⟨y, hy, he⟩ := readCall_eof h4
        exact absurd he (h1 y (by simp [hy]))
    · have hcall : ReadCall defs used (plain x) := by
        rcases loop_call (used ++ rest) l.buf hb h with ⟨rfl, bs, h4, _⟩ | ⟨used', rest2, h4, h5, h6⟩
        · rcases h3 with ⟨_, ⟨y, hy, he⟩, _⟩ | ⟨h3, _⟩
          · have : y ∈ bs.map good := by rw [← h4]; simp [hy]
            obtain ⟨c, _, rfl⟩ := List.mem_map.1 this
            cases he
          · exact absurd rfl h3
        · have hl : rest.length = rest2.length := by
            have := congrArg List.length (h2.symm.trans h5)
            simpa using this
          obtain ⟨rfl, _⟩ := suffix_unique h4 rfl hl.symm
          exact h6
      rcases h3 with ⟨rfl, _, h4, b', h5⟩ | ⟨hx, h4, h5⟩
      · exact ⟨[], .stops l.srv used, .stops hcall, by rw [h4, hreads]; rfl, _, h5, rfl, by simp⟩
      · have hlt : rest.length < (used ++ rest).length := by
          have := List.length_pos_iff.2 h1
          simp only [List.length_append]; omega
        cases x with
        | error e =>
          obtain ⟨es, fin, i1, i2, i3⟩ := ih rest.length hlt rest rfl { l with buf := b.reset } (reset_reset b) log
          refine ⟨_, fin, .error hcall (by simpa using hx) i1, ?_, ?_⟩
          · rw [h4, afterCall, recordedMsgs_reads, i2]
            simp [courseData, takenAll, triedAll, msgsOf, recordedData]
          · rw [h5, afterCallRun]
            cases fin <;> simpa [Ends.after] using i3
        | ok f =>
          cases hp : processFrame D clock l.srv f with
          | panic =>
            refine ⟨[], .panics used, .panics hcall (frame_panics D clock l.srv f hp), ?_, ?_⟩
            · rw [h4, afterCall, Live.frame, hp]
              simp only [Out.bind_panic, List.append_nil]
              rw [hreads]; rfl
            · rw [h5, afterCallRun, Live.frame, hp]; rfl
          | ret y =>
            obtain ⟨ps, m, cmds, c, news, p1, p2, p3, rfl⟩ := frame_returns hp
            obtain ⟨rss, q1, q2, q3⟩ := writeFrames_handed hg (news.flatten.map fun x => frameOf (marshalCmd m x).2)
            have hrl : rss.length = news.flatten.length := by rw [q1, List.length_map]
            obtain ⟨a1, a2, a3, _⟩ := answersOf_spec (m := m) news.flatten rss hrl q2
            have a4 := answersOf_reports m news.flatten rss hrl
            generalize answersOf m news.flatten rss = sent at a1 a2 a3 a4
            subst a4
            have hframe : l.frame D clock f = .ret ⟨f.reset, ⟨m, { c with out := [] }⟩,
                l.written ++ news.flatten.map fun x => frameOf (marshalCmd m x).2⟩ := by
              rw [Live.frame, hp]; rfl
            obtain ⟨es, fin, i1, i2, i3⟩ := ih rest.length hlt rest rfl ⟨f.reset, ⟨m, { c with out := [] }⟩,
                l.written ++ news.flatten.map fun x => frameOf (marshalCmd m x).2⟩ (reset_reset f)
                (log ++ handed fails log.length (sent.map (·.reports)))
            refine ⟨_, fin, .frame hcall p1 p2 p3 a1 a2 i1, ?_, ?_⟩
            · rw [h4, afterCall, hframe]
              simp only [List.drop_left', q3]
              rw [recordedMsgs_reads, recorded_handed, i2, List.length_append, handed_length]
              simp only [courseData, msgsOf, recordedData, List.map_append, List.map_map]
              rfl
            · rw [h5, afterCallRun, hframe, Out.bind_ret]
              rw [← a3] at i3 ⊢
              cases fin <;> simpa [Ends.after] using i3

/-! ### sessions without failing reads -/

/-- A round as an exchange. -/
def toVisit (e : Round) : Visit := ⟨e.used.map good, e.got, e.cmds, e.mode, e.sent⟩

theorem good_inj {a b : List Bytes} (h : a.map good = b.map good) : a = b :=
  (List.map_inj_right (by intro x y h; cases h; rfl)).1 h

theorem goods {used : List ReadRes} {bs : List Bytes} {rest : List ReadRes} (h : bs.map good = used ++ rest) :
    ∃ a b, bs = a ++ b ∧ used = a.map good ∧ rest = b.map good := by
  obtain ⟨a, b, h1, h2, h3⟩ := List.map_eq_append_iff.1 h
  exact ⟨a, b, h1, h2.symm, h3.symm⟩

theorem readCall_good {defs : List ReportDef} {bs : List Bytes} {x : Except Err Bytes} (h : ReadCall defs (bs.map good) x) :
    OneCall defs bs x := by
  generalize hu : bs.map good = used at h
  cases h with
  | call h => rw [good_inj hu]; exact h
  | @failed bs' d e h =>
    obtain ⟨a, b, _, _, h3⟩ := goods hu
    cases b with
    | nil => cases h3
    | cons y b => simp only [List.map_cons, List.cons.injEq, good, ReadRes.mk.injEq, reduceCtorEq, and_false, false_and] at h3

theorem deadly_unsafe {m : Bool} {spare f : Bytes} (h : Deadly m spare f) (hs : SafeFrame f) : False := by
  obtain ⟨ps, b, h1, h2⟩ := h
  obtain ⟨ps', h3, h4⟩ := hs spare
  obtain ⟨rfl, rfl⟩ := scan_unique h1 h3
  rcases h2 with h2 | ⟨ps1, p, ps2, rfl, h2⟩
  · cases h2
  · exact h4 p (by simp) _ h2

theorem course_talk {σ : Type} {D : Device σ} {clock : Clock} {defs : List ReportDef} (hmax : ∀ d ∈ defs, 1 ≤ d.len) {s : Srv σ}
    {reads : List ReadRes} {es : List Visit} {fin : Ending σ} (h : Course D clock defs s reads es fin) {bs : List Bytes}
    (hb : bs.map good = reads) (hsafe : ∀ rs tail, Frames defs bs rs tail → ∀ f, .ok f ∈ rs → SafeFrame f) :
    ∃ rounds s' tail, Talk D clock defs s rounds s' ∧ bs = rounds.flatMap (·.used) ++ tail ∧ Unfinished defs tail ∧
      es = rounds.map toVisit ∧ fin = .waits s' (tail.map good) := by
  have one : ∀ {a b : List Bytes} {x : Except Err Bytes}, OneCall defs a x →
      (∀ rs tail, Frames defs (a ++ b) rs tail → ∀ f, .ok f ∈ rs → SafeFrame f) →
      (∀ f, x = .ok f → SafeFrame f) ∧ ∀ rs tail, Frames defs b rs tail → ∀ f, .ok f ∈ rs → SafeFrame f := by
    intro a b x h1 h2
    refine ⟨fun f hf => ?_, fun rs tail h3 f hf => h2 _ tail (.cons h1 h3) f (by simp [hf])⟩
    obtain ⟨rs, t, hfr⟩ := C58_frames_total hmax b
    exact h2 _ t (.cons h1 hfr) f (by simp [hf])
  induction h generalizing bs with
  | waits h1 => rw [good_inj hb] at *; exact ⟨[], _, _, .nil, rfl, h1, rfl, rfl⟩
  | stops h1 =>
    obtain ⟨a, b, rfl, rfl, rfl⟩ := goods hb
    cases readCall_good h1
  | panics h1 h2 =>
    obtain ⟨a, b, rfl, rfl, rfl⟩ := goods hb
    exact (deadly_unsafe h2 ((one (readCall_good h1) hsafe).1 _ rfl)).elim
  | error h1 h2 _ ih =>
    obtain ⟨a, b, rfl, rfl, rfl⟩ := goods hb
    have hc := readCall_good h1
    obtain ⟨rounds, s', tail, i1, i2, i3, i4, i5⟩ := ih rfl (one hc hsafe).2
    exact ⟨_ :: rounds, s', tail, .error hc i1, by rw [List.flatMap_cons, List.append_assoc, ← i2], i3,
      by rw [i4, List.map_cons]; rfl, i5⟩
  | frame h1 h2 h3 h4 h5 h6 _ ih =>
    obtain ⟨a, b, rfl, rfl, rfl⟩ := goods hb
    have hc := readCall_good h1
    obtain ⟨hs, hs'⟩ := one hc hsafe
    obtain ⟨rounds, s', tail, i1, i2, i3, i4, i5⟩ := ih rfl hs'
    refine ⟨_ :: rounds, s', tail, .frame hc (fun spare => ?_) h3 h4 h5 h6 i1, by rw [List.flatMap_cons, List.append_assoc, ← i2], i3,
      by rw [i4, List.map_cons]; rfl, i5⟩
    obtain ⟨ps', h7, _⟩ := hs _ rfl spare
    rw [scan_spare h2 h7]
    exact h7

theorem recordedData_good {bs : List Bytes} (h : ∀ b ∈ bs, b ≠ []) : recordedData (bs.map good) = bs := by
  induction bs with
  | nil => rfl
  | cons b bs ih =>
    have := ih (fun b hb => h b (by simp [hb]))
    rw [recordedData, List.map_cons, List.filter_cons_of_pos (by simpa [Recorded, good] using h b (by simp)), List.map_cons]
    exact congrArg (b :: ·) this

theorem takenAll_whole {fails : Fails} {i : Nat} {as : List Answer} (h : WholeAnswers fails i as) :
    takenAll fails i as = (took fails i as).flatMap (·.reports) := by
  induction as generalizing i with
  | nil => rfl
  | cons a as ih =>
    rw [takenAll, took, ih h.2]
    by_cases ht : taken fails i a.reports = a.reports
    · rw [if_pos ht, ht, List.flatMap_cons]
    · rw [if_neg ht]
      rcases h.1 with h1 | h1
      · exact absurd h1 ht
      · rw [h1]; rfl

theorem courseData_rounds {fails : Fails} {i : Nat} {es : List Round} {tail : List Bytes} (h : WholeRounds fails i es)
    (hne : ∀ b ∈ es.flatMap (·.used) ++ tail, b ≠ []) :
    courseData fails i (es.map toVisit) (tail.map good) = (tookRounds fails i es).flatMap Round.moved ++ tail.map ((0, ·)) := by
  induction es generalizing i with
  | nil =>
    rw [List.map_nil, courseData, recordedData_good (fun b hb => hne b (by simpa using hb))]
    rfl
  | cons e es ih =>
    rw [List.map_cons, courseData, tookRounds, List.flatMap_cons]
    have h1 : recordedData (toVisit e).reads = e.used := recordedData_good (fun b hb => hne b (by simp [hb]))
    have h2 := ih h.2 (fun b hb => hne b (by
      rw [List.flatMap_cons]
      rcases List.mem_append.1 hb with hb | hb
      · simp only [List.mem_append]; exact .inl (.inr hb)
      · simp only [List.mem_append]; exact .inr hb))
    rw [h1]
    simp only [toVisit] at h2 ⊢
    rw [h2, takenAll_whole h.1, Round.moved, List.map_flatMap, List.append_assoc, List.append_assoc]

theorem tookRounds_used (fails : Fails) (i : Nat) (es : List Round) :
    (tookRounds fails i es).flatMap (·.used) = es.flatMap (·.used) := by
  induction es generalizing i with
  | nil => rfl
  | cons e es ih => rw [tookRounds, List.flatMap_cons, ih, List.flatMap_cons]

theorem took_sub (fails : Fails) (i : Nat) (as : List Answer) : ∀ a ∈ took fails i as, a ∈ as := by
  induction as generalizing i with
  | nil => simp [took]
  | cons x as ih =>
    intro a ha
    rw [took] at ha
    split at ha
    · rcases List.mem_cons.1 ha with rfl | ha
      · simp
      · exact List.mem_cons_of_mem _ (ih _ a ha)
    · exact List.mem_cons_of_mem _ (ih _ a ha)

theorem tookRounds_mem (fails : Fails) (i : Nat) (es : List Round) :
    ∀ e ∈ tookRounds fails i es, ∃ e' ∈ es, e.used = e'.used ∧ e.got = e'.got ∧ e.mode = e'.mode ∧ ∀ a ∈ e.sent, a ∈ e'.sent := by
  induction es generalizing i with
  | nil => simp [tookRounds]
  | cons x es ih =>
    intro e he
    rw [tookRounds] at he
    rcases List.mem_cons.1 he with rfl | he
    · exact ⟨x, by simp, rfl, rfl, rfl, took_sub _ _ _⟩
    · obtain ⟨e', h1, h2⟩ := ih _ e he
      exact ⟨e', by simp [h1], h2⟩

theorem took_shown {σ : Type} {D : Device σ} {clock : Clock} {defs : List ReportDef} {s s' : Srv σ} {es : List Round}
    (h : Talk D clock defs s es s') (fails : Fails) (i : Nat) {evs : List (Trace.Dir × Except Err Bytes)}
    (ht : TalkFrames (tookRounds fails i es) evs) {shown : List Shown}
    (he : shown.map (fun e => (e.dir, e.frame)) = evs) (hc : ShownCmds s.mode shown) :
    ShownTalk (tookRounds fails i es) shown := by
  induction h generalizing evs shown i with
  | nil =>
    cases ht
    rw [List.map_eq_nil_iff.1 he]
    exact .nil
  | error _ _ ih =>
    rw [tookRounds] at ht ⊢
    simp only [took] at ht ⊢
    cases ht with
    | cons h1 h2 =>
      cases h1
      cases hc with
      | nil => cases he
      | frame => simp at he
      | error hc =>
        simp only [List.map_cons, List.map_nil, List.nil_append, List.cons.injEq, Prod.mk.injEq, Except.error.injEq] at he
        obtain ⟨⟨rfl, rfl⟩, he⟩ := he
        exact ShownTalk.cons (evs := []) (e := ⟨_, .error _, [], _, []⟩) .nil (ih _ h2 he hc)
  | @frame s s' used f ps m cmds c news sent es g1 g2 g3 g4 g5 g6 _ ih =>
    rw [tookRounds] at ht ⊢
    simp only at ht ⊢
    cases ht with
    | cons h1 h2 =>
      cases hc with
      | nil => cases he
      | error => simp at he
      | frame k1 k2 k3 =>
        simp only [List.map_cons, List.cons.injEq, Prod.mk.injEq, Except.ok.injEq] at he
        obtain ⟨⟨rfl, rfl⟩, he⟩ := he
        have := scan_spare k1 (g2 [])
        subst this
        obtain ⟨rfl, rfl⟩ := decoded_unique k2 g3
        obtain ⟨s1, s2, i1, i2, i3, i4⟩ := sent_shown h1 he k3
        subst i1
        exact .cons i2 (ih _ h2 i4 i3)

end Ipod
