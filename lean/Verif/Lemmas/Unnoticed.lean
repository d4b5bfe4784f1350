import Verif.Lemmas.Record
import Verif.Props.Online

/-! A server whose reads fail where nobody notices does the same as one to which these reads never happen. -/

namespace Props
open Go Spec Ipod Ipod.Hid Ipod.Trace

theorem onRead_error {σ : Type} {D : Device σ} {clock : Clock} {grow : Growth} {defs : List ReportDef} {x : ReadRes} {e : Err}
    (h : rawReadReport x = .error e) (he : x.err ≠ some .eof) (l : Live σ) :
    l.onRead D clock grow defs x = .ret (some { l with buf := l.buf.reset }) := by
  have hne := rawReadReport_eof he
  rw [h] at hne
  simp only [Live.onRead, h]
  rw [if_neg (fun h => hne (by rw [h]))]

theorem unrecorded_error {x : ReadRes} (h : ¬ Recorded x) : ∃ e, rawReadReport x = .error e := by
  obtain ⟨data, err⟩ := x
  cases err with
  | some e => exact ⟨e, rfl⟩
  | none =>
    have : data = [] := Classical.byContradiction fun h' => h ⟨rfl, h'⟩
    subst this
    exact ⟨.noProgress, rfl⟩

theorem read_report {x : ReadRes} {r : Report} (hl : x.data.length ≤ 1024) (h : rawReadReport x = .ok r) :
    ∃ d ds, r.data = d :: ds ∧ x = ⟨r.id :: r.linkControl :: d :: ds, none⟩ := by
  obtain ⟨h1, h2, h3⟩ := (C35_raw_read_iff x hl r).1 h
  obtain ⟨id, lc, data⟩ := r
  obtain ⟨xd, xe⟩ := x
  simp only at h1 h2 h3
  subst h1 h3
  cases data with
  | nil => simp at h2
  | cons d ds => exact ⟨d, ds, rfl, rfl⟩

theorem report_read {id lc d : UInt8} {ds : Bytes} (hl : (id :: lc :: d :: ds).length ≤ 1024) :
    rawReadReport ⟨id :: lc :: d :: ds, none⟩ = .ok ⟨id, lc, d :: ds⟩ :=
  (C35_raw_read_iff _ hl _).2 ⟨rfl, by simp, rfl⟩

/-- After a read that ends a call of `ReadFrame` the buffer is empty. -/
theorem ends_reset {σ : Type} {D : Device σ} {clock : Clock} {grow : Growth} {defs : List ReportDef} {x : ReadRes}
    (hl : x.data.length ≤ 1024) (he : x.err ≠ some .eof) (hx : EndsCall defs x) {l l' : Live σ}
    (h : l.onRead D clock grow defs x = .ret (some l')) : l'.buf.reset = l'.buf := by
  cases hr : rawReadReport x with
  | error e =>
    rw [onRead_error hr he] at h
    cases h
    exact reset_reset _
  | ok r =>
    cases hf : find defs r.id.toNat with
    | none =>
      simp only [Live.onRead, hr, hf, Out.ret.injEq, Option.some.injEq] at h
      subst h
      exact reset_reset _
    | some d =>
      by_cases hm : d.maxPayload < 0
      · simp only [Live.onRead, hr, hf, if_pos hm] at h; cases h
      have ha : Accepted defs r (r.data.take d.maxPayload.toNat) := accepted_iff.2 ⟨d, hf, by omega, rfl⟩
      have ho := onRead_accepted D clock grow defs hr ha l
      obtain ⟨d0, ds, h1, h2⟩ := read_report hl hr
      have hE : Ends r := by
        have := hx r.id r.linkControl d0 ds h2 (by rw [← h1]; exact ⟨_, ha⟩)
        rw [← h1] at this
        exact this
      simp only [if_pos hE] at ho
      rw [ho] at h
      generalize (if Starts r then l.buf.reset.write grow (r.data.take d.maxPayload.toNat)
          else if Known r then l.buf.write grow (r.data.take d.maxPayload.toNat) else l.buf) = buf1 at h
      unfold Live.frame at h
      cases hp : processFrame D clock l.srv buf1 with
      | panic => rw [hp] at h; cases h
      | ret y => rw [hp] at h; cases h; exact reset_reset _

theorem unnoticed_tail {defs : List ReportDef} {x : ReadRes} {reads : List ReadRes} (h : FailsUnnoticed defs (x :: reads)) :
    FailsUnnoticed defs reads := by
  rintro pre a y rest rfl hy
  exact h (x :: pre) a y rest rfl hy

/-- A server `l` and another one `m` that did not get the reads that count for nothing; `reads` are those to come. -/
structure Alike {σ : Type} (defs : List ReportDef) (l m : Live σ) (reads : List ReadRes) : Prop where
  srv : l.srv = m.srv
  written : l.written = m.written
  buf : (l.buf = m.buf ∧ (l.buf.reset = l.buf ∨ ∀ y rest, reads = y :: rest → ¬ Recorded y → Fresh defs rest)) ∨
    (l.buf = m.buf.reset ∧ Fresh defs reads)

theorem alike_same {σ : Type} {D : Device σ} {clock : Clock} {grow : Growth} {defs : List ReportDef} {x : ReadRes}
    {reads : List ReadRes} (hl : x.data.length ≤ 1024) (he : x.err ≠ some .eof) (hf : FailsUnnoticed defs (x :: reads)) {l l' : Live σ}
    (h : l.onRead D clock grow defs x = .ret (some l')) : Alike defs l' l' reads := by
  refine ⟨rfl, rfl, .inl ⟨rfl, ?_⟩⟩
  by_cases hx : EndsCall defs x
  · exact .inl (ends_reset hl he hx h)
  · right
    rintro y rest rfl hy
    exact (hf [] x y rest rfl hy).resolve_left hx

theorem fresh_step {σ : Type} (D : Device σ) (clock : Clock) (grow : Growth) {defs : List ReportDef} {x : ReadRes}
    {reads : List ReadRes} (hl : x.data.length ≤ 1024) (he : x.err ≠ some .eof) (hx : Recorded x) (hf : Fresh defs (x :: reads))
    {l m : Live σ} (h1 : l.srv = m.srv) (h2 : l.written = m.written) (h3 : l.buf = m.buf.reset) :
    l.onRead D clock grow defs x = m.onRead D clock grow defs x ∨
      (l.onRead D clock grow defs x = .ret (some l) ∧ m.onRead D clock grow defs x = .ret (some m) ∧ Fresh defs reads) := by
  obtain ⟨lb, ls, lw⟩ := l
  obtain ⟨mb, ms, mw⟩ := m
  simp only at h1 h2 h3
  subst h1 h2 h3
  cases hf with
  | fails h _ => exact absurd hx h
  | refused _ h =>
    left
    cases hr : rawReadReport x with
    | error e =>
      rw [onRead_error hr he, onRead_error hr he, reset_reset]
    | ok r =>
      obtain ⟨d0, ds, e1, e2⟩ := read_report hl hr
      have hno := h r.id r.linkControl d0 ds e2
      rw [← e1] at hno
      cases hfi : find defs r.id.toNat with
      | none => simp only [Live.onRead, hr, hfi, reset_reset]
      | some d =>
        by_cases hm : d.maxPayload < 0
        · simp only [Live.onRead, hr, hfi, if_pos hm]
        · exact absurd ⟨_, accepted_iff.2 ⟨d, hfi, by omega, rfl⟩⟩ hno
  | starts ha hs =>
    left
    have hr := report_read hl
    rw [onRead_accepted D clock grow defs hr ha, onRead_accepted D clock grow defs hr ha]
    simp only [if_pos hs, reset_reset]
    split <;> rfl
  | ignored ha hk hrest =>
    right
    have hr := report_read hl
    have hs : ¬ Starts _ := fun h => hk (by rcases h with h | h <;> (unfold Known; rw [h]; decide))
    have hE : ¬ Ends _ := fun h => hk (by rcases h with h | h <;> (unfold Known; rw [h]; decide))
    rw [onRead_accepted D clock grow defs hr ha, onRead_accepted D clock grow defs hr ha]
    simp only [if_neg hs, if_neg hk, if_neg hE]
    exact ⟨trivial, trivial, hrest⟩

/-- A read that counts does the same to both. -/
theorem alike_step {σ : Type} (D : Device σ) (clock : Clock) (grow : Growth) {defs : List ReportDef} {x : ReadRes}
    {reads : List ReadRes} (hl : x.data.length ≤ 1024) (he : x.err ≠ some .eof) (hx : Recorded x)
    (hf : FailsUnnoticed defs (x :: reads)) {l m : Live σ} (h : Alike defs l m (x :: reads)) :
    (l.onRead D clock grow defs x = .panic ∧ m.onRead D clock grow defs x = .panic) ∨
      ∃ l' m', l.onRead D clock grow defs x = .ret (some l') ∧ m.onRead D clock grow defs x = .ret (some m') ∧
        Alike defs l' m' reads := by
  have same : l.onRead D clock grow defs x = m.onRead D clock grow defs x →
      (l.onRead D clock grow defs x = .panic ∧ m.onRead D clock grow defs x = .panic) ∨
      ∃ l' m', l.onRead D clock grow defs x = .ret (some l') ∧ m.onRead D clock grow defs x = .ret (some m') ∧
        Alike defs l' m' reads := by
    intro hs
    cases ho : l.onRead D clock grow defs x with
    | panic => exact .inl ⟨rfl, by rw [← hs, ho]⟩
    | ret y =>
      cases y with
      | none => exact absurd (onRead_none.1 ho) he
      | some l' => exact .inr ⟨l', l', rfl, by rw [← hs, ho], alike_same hl he hf ho⟩
  rcases h.buf with ⟨hb, _⟩ | ⟨hb, hfr⟩
  · have : l = m := by
      obtain ⟨lb, ls, lw⟩ := l
      obtain ⟨mb, ms, mw⟩ := m
      have h1 := h.srv
      have h2 := h.written
      simp only at h1 h2 hb
      rw [h1, h2, hb]
    exact same (by rw [this])
  · rcases fresh_step D clock grow hl he hx hfr h.srv h.written hb with hs | ⟨h1, h2, h3⟩
    · exact same hs
    · exact .inr ⟨l, m, h1, h2, h.srv, h.written, .inr ⟨hb, h3⟩⟩

/-- A read that does not count leaves them alike. -/
theorem alike_skip {σ : Type} (D : Device σ) (clock : Clock) (grow : Growth) {defs : List ReportDef} {x : ReadRes}
    {reads : List ReadRes} (he : x.err ≠ some .eof) (hx : ¬ Recorded x) {l m : Live σ} (h : Alike defs l m (x :: reads)) :
    l.onRead D clock grow defs x = .ret (some { l with buf := l.buf.reset }) ∧
      Alike defs { l with buf := l.buf.reset } m reads := by
  obtain ⟨e, hr⟩ := unrecorded_error hx
  refine ⟨onRead_error hr he l, h.srv, h.written, ?_⟩
  simp only
  rcases h.buf with ⟨hb, h1 | h1⟩ | ⟨hb, hfr⟩
  · exact .inl ⟨by rw [h1, hb], .inl (reset_reset _)⟩
  · exact .inr ⟨by rw [hb], h1 x reads rfl hx⟩
  · refine .inr ⟨by rw [hb, reset_reset], ?_⟩
    cases hfr with
    | fails _ h => exact h
    | refused h _ => exact absurd h hx
    | starts _ _ => exact absurd ⟨rfl, by simp⟩ hx
    | ignored _ _ _ => exact absurd ⟨rfl, by simp⟩ hx

/-- What can be seen of a server that has been run: nothing after a panic, else its state, its frames and whether it runs on. -/
def seen {σ : Type} : Out (Live σ × Bool) → Out (Srv σ × List Bytes × Bool)
  | .panic => .panic
  | .ret (l, b) => .ret (l.srv, l.written, b)

theorem run_unnoticed {σ : Type} (D : Device σ) (clock : Clock) (grow : Growth) {defs : List ReportDef} (reads : List ReadRes)
    (hr : ∀ x ∈ reads, x.data.length ≤ 1024 ∧ x.err ≠ some .eof) (hf : FailsUnnoticed defs reads) {l m : Live σ}
    (h : Alike defs l m reads) :
    seen (Live.run D clock grow defs reads l) =
      seen (Live.run D clock grow defs (reads.filter (fun x => decide (Recorded x))) m) := by
  induction reads generalizing l m with
  | nil => simp only [List.filter_nil, Live.run, seen, h.srv, h.written]
  | cons x reads ih =>
    obtain ⟨hl, he⟩ := hr x (by simp)
    have ih := @ih (fun y hy => hr y (by simp [hy])) (unnoticed_tail hf)
    by_cases hx : Recorded x
    · rw [List.filter_cons_of_pos (by simpa using hx), Live.run, Live.run]
      rcases alike_step D clock grow hl he hx hf h with ⟨h1, h2⟩ | ⟨l', m', h1, h2, h3⟩
      · rw [h1, h2]; rfl
      · rw [h1, h2]
        exact ih h3
    · obtain ⟨h1, h2⟩ := alike_skip D clock grow he hx h
      rw [List.filter_cons_of_neg (by simpa using hx), Live.run, h1]
      exact ih h2

theorem recordedMsgs_cons_read (x : ReadRes) (ops : List TOp) : recordedMsgs (.read x :: ops) =
    (if Recorded x then [⟨0, 0, x.data⟩] else []) ++ recordedMsgs ops := by
  have := recordedMsgs_reads [x] ops
  simp only [List.map_cons, List.map_nil, List.cons_append, List.nil_append] at this
  rw [this]
  by_cases hx : Recorded x
  · rw [List.filter_cons_of_pos (by simpa using hx), if_pos hx]; rfl
  · rw [List.filter_cons_of_neg (by simpa using hx), if_neg hx]; rfl

theorem recordedMsgs_append (a b : List TOp) : recordedMsgs (a ++ b) = recordedMsgs a ++ recordedMsgs b := by
  simp [recordedMsgs]

theorem session_unnoticed {σ : Type} (D : Device σ) (clock : Clock) (grow : Growth) {defs : List ReportDef} (fails : Fails)
    (reads : List ReadRes) (hr : ∀ x ∈ reads, x.data.length ≤ 1024 ∧ x.err ≠ some .eof) (hf : FailsUnnoticed defs reads)
    {l m : Live σ} (h : Alike defs l m reads) (log : List Report) :
    recordedMsgs (session D clock grow defs fails reads l log) =
      recordedMsgs (session D clock grow defs fails (reads.filter (fun x => decide (Recorded x))) m log) := by
  induction reads generalizing l m log with
  | nil => rfl
  | cons x reads ih =>
    obtain ⟨hl, he⟩ := hr x (by simp)
    have ih := @ih (fun y hy => hr y (by simp [hy])) (unnoticed_tail hf)
    by_cases hx : Recorded x
    · rw [List.filter_cons_of_pos (by simpa using hx), session, session, recordedMsgs_cons_read, recordedMsgs_cons_read]
      rcases alike_step D clock grow hl he hx hf h with ⟨h1, h2⟩ | ⟨l', m', h1, h2, h3⟩
      · rw [h1, h2]
      · rw [h1, h2]
        simp only [h3.written, h.written]
        cases writeFrames defs fails log (m'.written.drop m.written.length) with
        | panic => rfl
        | ret log' =>
          simp only
          rw [recordedMsgs_append, recordedMsgs_append, ih h3]
    · obtain ⟨h1, h2⟩ := alike_skip D clock grow he hx h
      rw [List.filter_cons_of_neg (by simpa using hx), session, h1, recordedMsgs_cons_read, if_neg hx]
      simp only [List.drop_length, writeFrames_nil, writeOps, List.nil_append]
      exact ih h2 log

theorem alike_start {σ : Type} (defs : List ReportDef) (reads : List ReadRes) (s : Srv σ) :
    Alike defs (Live.start s) (Live.start s) reads := ⟨rfl, rfl, .inl ⟨rfl, .inl rfl⟩⟩

/-! ### Sessions with failing writes -/

theorem outcome_prefix (fails : Fails) (rs log : List Report) :
    ∃ sent, (Hid.outcome fails log rs).1 = log ++ sent ∧ ∀ r ∈ sent, r ∈ rs := by
  induction rs generalizing log with
  | nil => exact ⟨[], by simp [Hid.outcome], by simp⟩
  | cons r rs ih =>
    rw [Hid.outcome]
    cases fails log.length with
    | some e => exact ⟨[r], rfl, by simp⟩
    | none =>
      obtain ⟨sent, h1, h2⟩ := ih (log ++ [r])
      refine ⟨r :: sent, by simp [h1], ?_⟩
      intro x hx
      rcases List.mem_cons.1 hx with rfl | hx
      · simp
      · simp [h2 x hx]

/-- Whatever the device does: the frames are handed over, or parts of them, in reports of at most 1024 bytes. -/
theorem writeFrames_any {defs : List ReportDef} (hg : GoodTable defs) (hmax : ∀ d ∈ defs, d.maxPayload ≤ 1022) (fails : Fails)
    (frames : List Bytes) (log : List Report) :
    ∃ sent, writeFrames defs fails log frames = .ret (log ++ sent) ∧ ∀ r ∈ sent, (rawReportBytes r).length ≤ 1024 := by
  induction frames generalizing log with
  | nil => exact ⟨[], by simp [writeFrames], by simp⟩
  | cons frame frames ih =>
    have one : ∃ sent err, writeFrameFor (frame.length + 1) defs fails log frame = some (.ret (log ++ sent, err)) ∧
        ∀ r ∈ sent, (rawReportBytes r).length ≤ 1024 := by
      by_cases h0 : frame.length = 0
      · exact ⟨[], none, by rw [writeFrameFor, writeFrameLoop, if_pos h0, List.append_nil], by simp⟩
      · obtain ⟨rs, h1, _, h3⟩ := writeFrameLoop_spec defs (fun d hd _ => hg.carries d hd) hg.hasIn frame frame.length 0
          (by simp) h0
        obtain ⟨sent, h4, h5⟩ := outcome_prefix fails rs log
        refine ⟨sent, (Hid.outcome fails log rs).2, ?_, ?_⟩
        · rw [writeFrameFor, h3 _ _ _ (by omega), ← h4]
        · intro r hr
          obtain ⟨d, hd, hb⟩ := (Chunks.data hg h1).1 r (h5 r hr)
          have e1 := hmax d hd
          have e2 := hb.2.2
          simp only [rawReportBytes, List.length_append, List.length_cons, List.length_nil]
          omega
    obtain ⟨sent, err, h1, h2⟩ := one
    obtain ⟨sent', h3, h4⟩ := ih (log ++ sent)
    refine ⟨sent ++ sent', ?_, ?_⟩
    · rw [writeFrames, h1]
      simp only
      rw [h3, List.append_assoc]
    · intro r hr
      rcases List.mem_append.1 hr with hr | hr
      · exact h2 r hr
      · exact h4 r hr

theorem session_sizes {σ : Type} (D : Device σ) (clock : Clock) (grow : Growth) {defs : List ReportDef} (hg : GoodTable defs)
    (hmax : ∀ d ∈ defs, d.maxPayload ≤ 1022) (fails : Fails) (reads : List ReadRes) (l : Live σ) (log : List Report) :
    ∀ p res, .write p res ∈ session D clock grow defs fails reads l log → p.length ≤ 1024 := by
  induction reads generalizing l log with
  | nil => intro p res h; cases h
  | cons x reads ih =>
    intro p res h
    rw [session] at h
    rcases List.mem_cons.1 h with h | h
    · cases h
    cases ho : l.onRead D clock grow defs x with
    | panic => rw [ho] at h; cases h
    | ret y =>
      rw [ho] at h
      cases y with
      | none => cases h
      | some l' =>
        obtain ⟨sent, h1, h2⟩ := writeFrames_any hg hmax fails (l'.written.drop l.written.length) log
        simp only [h1, List.drop_left'] at h
        rcases List.mem_append.1 h with h | h
        · obtain ⟨r, hr, _, he⟩ := mem_writeOps h
          cases he
          exact h2 r hr
        · exact ih l' _ p res h

/-- The reads a session gets to: all, or up to the one that makes the server panic, or up to the first end of the file. -/
theorem session_reads {σ : Type} (D : Device σ) (clock : Clock) (grow : Growth) {defs : List ReportDef} (hg : GoodTable defs)
    (hmax : ∀ d ∈ defs, d.maxPayload ≤ 1022) (fails : Fails) (reads : List ReadRes) (l : Live σ) (log : List Report) :
    ∃ pre post, reads = pre ++ post ∧ (∀ x ∈ pre, x.err ≠ some .eof) ∧
      ((readsOf (session D clock grow defs fails reads l log) = pre ∧
          Live.run D clock grow defs reads l = Live.run D clock grow defs pre l ∧
          (∀ l', Live.run D clock grow defs reads l ≠ .ret (l', false))) ∨
        ∃ y post' l', post = y :: post' ∧ y.err = some .eof ∧
          readsOf (session D clock grow defs fails reads l log) = pre ++ [y] ∧
          Live.run D clock grow defs pre l = .ret (l', true) ∧ Live.run D clock grow defs reads l = .ret (l', false)) := by
  induction reads generalizing l log with
  | nil => exact ⟨[], [], rfl, by simp, .inl ⟨rfl, rfl, by simp [Live.run]⟩⟩
  | cons x reads ih =>
    rw [session]
    cases ho : l.onRead D clock grow defs x with
    | panic =>
      refine ⟨[x], reads, rfl, ?_, .inl ⟨rfl, ?_, ?_⟩⟩
      · intro y hy he
        rcases List.mem_singleton.1 hy with rfl
        rw [onRead_none.2 he] at ho
        cases ho
      · rw [Live.run, ho, Live.run, ho]; rfl
      · rw [Live.run, ho]; rintro _ ⟨⟩
    | ret z =>
      cases z with
      | none =>
        exact ⟨[], x :: reads, rfl, by simp, .inr ⟨x, reads, l, rfl, onRead_none.1 ho, rfl, rfl, by rw [Live.run, ho]; rfl⟩⟩
      | some l' =>
        obtain ⟨sent, h1, _⟩ := writeFrames_any hg hmax fails (l'.written.drop l.written.length) log
        have hx : x.err ≠ some .eof := fun he => by rw [onRead_none.2 he] at ho; cases ho
        have hrun : ∀ rs, Live.run D clock grow defs (x :: rs) l = Live.run D clock grow defs rs l' := fun rs => by
          rw [Live.run, ho]; rfl
        have hreads : ∀ ops, readsOf (.read x :: (writeOps fails log.length sent ++ ops)) = x :: readsOf ops := fun ops => by
          have : readsOf (.read x :: (writeOps fails log.length sent ++ ops)) = x :: readsOf (writeOps fails log.length sent ++ ops) := rfl
          rw [this, readsOf_append, readsOf_writes, List.nil_append]
        simp only [h1, List.drop_left', hreads, hrun]
        obtain ⟨pre, post, i1, i2, i3⟩ := ih l' (log ++ sent)
        refine ⟨x :: pre, post, by rw [i1]; rfl, ?_, ?_⟩
        · intro y hy
          rcases List.mem_cons.1 hy with rfl | hy
          · exact hx
          · exact i2 y hy
        · rcases i3 with ⟨j1, j2, j3⟩ | ⟨y, post', l2, j1, j2, j3, j4, j5⟩
          · exact .inl ⟨by rw [j1], by rw [hrun, j2], j3⟩
          · exact .inr ⟨y, post', l2, j1, j2, by rw [j3]; rfl, by rw [hrun, j4], j5⟩

/-- A server that is still running has got all reads. -/
theorem session_all {σ : Type} (D : Device σ) (clock : Clock) (grow : Growth) {defs : List ReportDef} (hg : GoodTable defs)
    (hmax : ∀ d ∈ defs, d.maxPayload ≤ 1022) (fails : Fails) (reads : List ReadRes) (l l' : Live σ) (log : List Report)
    (h : Live.run D clock grow defs reads l = .ret (l', true)) :
    readsOf (session D clock grow defs fails reads l log) = reads := by
  induction reads generalizing l log with
  | nil => rfl
  | cons x reads ih =>
    rw [Live.run] at h
    rw [session]
    cases ho : l.onRead D clock grow defs x with
    | panic => rw [ho] at h; cases h
    | ret z =>
      rw [ho] at h
      cases z with
      | none => cases h
      | some l1 =>
        obtain ⟨sent, h1, _⟩ := writeFrames_any hg hmax fails (l1.written.drop l.written.length) log
        simp only [h1, List.drop_left']
        have := ih l1 (log ++ sent) h
        show x :: readsOf (writeOps fails log.length sent ++ _) = _
        rw [readsOf_append, readsOf_writes, List.nil_append, this]

theorem fresh_prefix {defs : List ReportDef} {a b : List ReadRes} (h : Fresh defs (a ++ b)) : Fresh defs a := by
  induction a with
  | nil => exact .nil
  | cons x a ih =>
    cases h with
    | fails h1 h2 => exact .fails h1 (ih h2)
    | refused h1 h2 => exact .refused h1 h2
    | starts h1 h2 => exact .starts h1 h2
    | ignored h1 h2 h3 => exact .ignored h1 h2 (ih h3)

theorem unnoticed_prefix {defs : List ReportDef} {a b : List ReadRes} (h : FailsUnnoticed defs (a ++ b)) : FailsUnnoticed defs a := by
  rintro pre x y rest rfl hy
  exact (h pre x y (rest ++ b) (by simp) hy).imp id fresh_prefix

end Props
