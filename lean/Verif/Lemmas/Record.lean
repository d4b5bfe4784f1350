import Verif.Model.Record
import Verif.Spec.Record
import Verif.Lemmas.Online
import Verif.Lemmas.View
import Verif.Props.Replay
import Verif.Props.View

/-! Lemmas about recorded sessions. -/

namespace Ipod
open Go Spec Hid Trace Props

/-- What the session does when a call of `ReadFrame` delivers `x`. -/
def afterCall {σ : Type} (D : Device σ) (clock : Clock) (grow : Growth) (defs : List ReportDef) (fails : Fails)
    (reads : List ReadRes) (l : Live σ) (log : List Report) (b : Slice) : Except Err Slice → List TOp
  | .error _ => session D clock grow defs fails reads { l with buf := b.reset } log
  | .ok f =>
    match l.frame D clock f with
    | .panic => []
    | .ret l' =>
      match writeFrames defs fails log (l'.written.drop l.written.length) with
      | .panic => []
      | .ret log' => writeOps fails log.length (log'.drop log.length) ++ session D clock grow defs fails reads l' log'

/-- What the server does when a call of `ReadFrame` delivers `x`. -/
def afterCallRun {σ : Type} (D : Device σ) (clock : Clock) (grow : Growth) (defs : List ReportDef)
    (reads : List ReadRes) (l : Live σ) (b : Slice) : Except Err Slice → Out (Live σ × Bool)
  | .error _ => Live.run D clock grow defs reads { l with buf := b.reset }
  | .ok f => l.frame D clock f >>= fun l' => Live.run D clock grow defs reads l'

theorem rawReadReport_eof {x : ReadRes} (h : x.err ≠ some .eof) : rawReadReport x ≠ .error .eof := by
  obtain ⟨d, err⟩ := x
  intro hr
  cases err with
  | some e => simp only [rawReadReport, Except.error.injEq] at hr; subst hr; exact h rfl
  | none => simp only [rawReadReport] at hr; split at hr <;> cases hr

theorem writeFrames_nil (defs : List ReportDef) (fails : Fails) (log : List Report) : writeFrames defs fails log [] = .ret log := rfl

/-- Cutting a session at the calls of `ReadFrame`. -/
theorem session_call {σ : Type} (D : Device σ) (clock : Clock) (grow : Growth) {defs : List ReportDef} (fails : Fails)
    (reads : List ReadRes) (he : ∀ r ∈ reads, r.err ≠ some .eof) (l : Live σ) (log : List Report)
    {rest' : List (Except Err Report)} {b : Slice} {x : Except Err Slice}
    (h : readFrameLoop grow defs (reads.map rawReadReport) l.buf = .ret (rest', b, x)) :
    (x = .error .eof ∧ session D clock grow defs fails reads l log = reads.map .read ∧
      Live.run D clock grow defs reads l = .ret ({ l with buf := b }, true)) ∨
    (x ≠ .error .eof ∧ ∃ used rest, reads = used ++ rest ∧ used ≠ [] ∧ rest' = rest.map rawReadReport ∧
      session D clock grow defs fails reads l log = used.map .read ++ afterCall D clock grow defs fails rest l log b x ∧
      Live.run D clock grow defs reads l = afterCallRun D clock grow defs rest l b x) := by
  induction reads generalizing l with
  | nil =>
    left
    simp only [List.map_nil, readFrameLoop, Out.ret.injEq, Prod.mk.injEq] at h
    obtain ⟨_, rfl, rfl⟩ := h
    exact ⟨rfl, rfl, rfl⟩
  | cons r reads ih =>
    have he' := fun y hy => he y (List.mem_cons_of_mem r hy)
    have hne := rawReadReport_eof (he r (by simp))
    have step : ∀ l' : Live σ, l'.written = l.written → l.onRead D clock grow defs r = .ret (some l') →
        session D clock grow defs fails (r :: reads) l log = .read r :: session D clock grow defs fails reads l' log ∧
        Live.run D clock grow defs (r :: reads) l = Live.run D clock grow defs reads l' := by
      intro l' hw ho
      constructor
      · rw [session, ho]
        simp only [hw, List.drop_length, writeFrames_nil, writeOps, List.nil_append]
      · rw [Live.run, ho]; rfl
    rw [List.map_cons] at h
    cases hr : rawReadReport r with
    | error e =>
      right
      rw [hr] at h hne
      simp only [readFrameLoop, Out.ret.injEq, Prod.mk.injEq] at h
      obtain ⟨rfl, rfl, rfl⟩ := h
      have hee : e ≠ .eof := fun h => hne (by rw [h])
      obtain ⟨h1, h2⟩ := step { l with buf := l.buf.reset } rfl (by simp only [Live.onRead, hr]; rw [if_neg hee])
      exact ⟨by simpa using hee, [r], reads, rfl, by simp, rfl, h1, h2⟩
    | ok rep =>
      rw [hr] at h
      cases hf : find defs rep.id.toNat with
      | none =>
        right
        simp only [readFrameLoop, hf, Out.ret.injEq, Prod.mk.injEq] at h
        obtain ⟨rfl, rfl, rfl⟩ := h
        obtain ⟨h1, h2⟩ := step { l with buf := l.buf.reset } rfl (by simp only [Live.onRead, hr, hf])
        exact ⟨by simp [Err.noReport], [r], reads, rfl, by simp, rfl, h1, h2⟩
      | some d =>
        by_cases hm : d.maxPayload < 0
        · simp only [readFrameLoop, hf, if_pos hm] at h; cases h
        have ha : Accepted defs rep (rep.data.take d.maxPayload.toNat) := accepted_iff.2 ⟨d, hf, by omega, rfl⟩
        rw [readFrameLoop_accepted grow defs rep _ ha] at h
        have ho := onRead_accepted D clock grow defs hr ha l
        simp only at h ho
        generalize hb : (if Starts rep then l.buf.reset.write grow (rep.data.take d.maxPayload.toNat)
          else if Known rep then l.buf.write grow (rep.data.take d.maxPayload.toNat) else l.buf) = buf1 at h ho
        by_cases hE : Ends rep
        · right
          rw [if_pos hE] at h ho
          simp only [Out.ret.injEq, Prod.mk.injEq] at h
          obtain ⟨rfl, rfl, rfl⟩ := h
          refine ⟨by simp, [r], reads, rfl, by simp, rfl, ?_, ?_⟩
          · rw [session, ho, afterCall]
            cases l.frame D clock buf1 <;> rfl
          · rw [Live.run, ho, afterCallRun]
            cases l.frame D clock buf1 <;> rfl
        · rw [if_neg hE] at h ho
          obtain ⟨h1, h2⟩ := step { l with buf := buf1 } rfl ho
          rcases ih he' { l with buf := buf1 } h with ⟨i1, i2, i3⟩ | ⟨i1, used, rest, i2, i3, i4, i5, i6⟩
          · left
            exact ⟨i1, by rw [h1, i2]; rfl, by rw [h2, i3]⟩
          · right
            refine ⟨i1, r :: used, rest, by rw [i2]; rfl, by simp, i4, ?_, ?_⟩
            · rw [h1, i5]
              cases x with
              | error e => rfl
              | ok f => rfl
            · rw [h2, i6]
              cases x with
              | error e => rfl
              | ok f => rfl

theorem carries_written {defs : List ReportDef} (hg : GoodTable defs) (frame : Bytes) :
    ∃ rs, Carries defs frame rs ∧ ∀ log, writeFrameFor (frame.length + 1) defs (fun _ => none) log frame =
      some (.ret (log ++ rs, none)) := by
  by_cases hf : frame = []
  · subst hf
    exact ⟨[], .inl ⟨rfl, rfl⟩, fun log => by simp [writeFrameFor, writeFrameLoop]⟩
  · obtain ⟨rs, h1, _, h2, h3⟩ := written_chunks hg hf
    have hw := (h3 rs).2 rfl
    obtain ⟨b', f, pad, h4, h5, h6, _⟩ := C29_frame_roundtrip (fun _ n => n) defs hg frame hf rs hw [] ⟨[], []⟩
    obtain ⟨used, h7, h8⟩ := (C33_delivered_iff _ defs _ _ _ _).1 ⟨b', f, h4, rfl⟩
    have hu : used = rs := by
      have e : rs.map (Except.ok (ε := Err)) = used.map .ok := by simpa using h7
      exact (List.map_inj_right (by intro a b hab; cases hab; rfl)).1 e.symm
    subst hu
    refine ⟨used, .inr ⟨hf, h1.linkSeq, (h1.data hg).1, pad, h6, by rw [← h5]; exact h8⟩, fun log => ?_⟩
    rw [h2 _ _ _ (by omega), Hid.outcome_ok _ _ _ (fun _ _ => rfl)]

/-- A device that takes everything. -/
theorem writeFrames_carries {defs : List ReportDef} (hg : GoodTable defs) (ws : List Bytes) :
    ∃ rss : List (List Report), rss.length = ws.length ∧ (∀ p ∈ ws.zip rss, Carries defs p.1 p.2) ∧
      ∀ log, writeFrames defs (fun _ => none) log ws = .ret (log ++ rss.flatten) := by
  induction ws with
  | nil => exact ⟨[], rfl, by simp, fun log => by simp [writeFrames]⟩
  | cons w ws ih =>
    obtain ⟨rs, h1, h2⟩ := carries_written hg w
    obtain ⟨rss, h3, h4, h5⟩ := ih
    refine ⟨rs :: rss, by simp [h3], ?_, fun log => ?_⟩
    · intro p hp
      simp only [List.zip_cons_cons, List.mem_cons] at hp
      rcases hp with rfl | hp
      · exact h1
      · exact h4 p hp
    · simp only [writeFrames, h2, h5, List.flatten_cons, List.append_assoc]

/-- Successful writes are recorded. -/
theorem recorded_writes (i : Nat) (rs : List Report) (ops : List TOp) :
    recordedMsgs (writeOps (fun _ => none) i rs ++ ops) =
      rs.map (fun r => ⟨1, 0, r.id :: r.linkControl :: r.data⟩) ++ recordedMsgs ops := by
  induction rs generalizing i with
  | nil => rfl
  | cons r rs ih =>
    have := ih (i + 1)
    simp only [recordedMsgs] at this ⊢
    rw [writeOps, List.cons_append, List.filterMap_cons]
    simp only [moved, List.take_length]
    rw [List.filter_cons_of_pos (by simp [rawReportBytes]), List.map_cons, this, List.map_cons]
    rfl

theorem recordedMsgs_reads (rs : List ReadRes) (ops : List TOp) :
    recordedMsgs (rs.map .read ++ ops) =
      (rs.filter (fun x => decide (Recorded x))).map (fun x => ⟨0, 0, x.data⟩) ++ recordedMsgs ops := by
  induction rs with
  | nil => rfl
  | cons x rs ih =>
    obtain ⟨d, err⟩ := x
    simp only [recordedMsgs] at ih ⊢
    rw [List.map_cons, List.cons_append, List.filterMap_cons]
    cases err with
    | some e =>
      rw [List.filter_cons_of_neg (by simp [Recorded])]
      exact ih
    | none =>
      simp only [moved]
      by_cases hd : d = []
      · rw [List.filter_cons_of_neg (by simp [hd]), List.filter_cons_of_neg (by simp [Recorded, hd])]
        exact ih
      · rw [List.filter_cons_of_pos (by simpa using hd), List.filter_cons_of_pos (by simpa [Recorded] using hd), List.map_cons, ih,
          List.map_cons]
        rfl

/-- The scan of a frame that does not crash depends on the frame only. -/
theorem scan_spare {s1 s2 d : Bytes} {ps1 ps2 : List Bytes} (h1 : Scan s1 d ps1 false) (h2 : Scan s2 d ps2 false) : ps1 = ps2 := by
  generalize hb : false = b at h1
  induction h1 generalizing ps2 with
  | done hf =>
    have r := readPacket_filler _ s2 hf
    cases h2 with
    | done => rfl
    | packet hj hw hs => rw [readPacket_isPacket _ _ _ _ s2 hj hw] at r; simp at r
    | skip hj hp ho hs =>
      obtain ⟨e, he, r'⟩ := readPacket_skip hj hp ho
      rw [r'] at r
      simp only [Out.ret.injEq, Prod.mk.injEq, Except.error.injEq] at r
      exact absurd r.2 he
  | crash => cases hb
  | @packet j w rest p ps b hj hw hs ih =>
    have r := readPacket_isPacket j w p rest s2 hj hw
    generalize hd : j ++ w ++ rest = d0 at r h2
    cases h2 with
    | done hf => rw [readPacket_filler _ s2 hf] at r; cases r
    | packet hj hw hs =>
      rw [readPacket_isPacket _ _ _ _ s2 hj hw] at r; cases r
      rw [ih hs hb]
    | skip hj hp ho hs =>
      obtain ⟨e, he, r'⟩ := readPacket_skip hj hp ho
      rw [r'] at r; cases r
  | @skip j d ps b hj hp ho hs ih =>
    generalize hd : j ++ 0x55 :: d = d0 at h2
    cases h2 with
    | done hf => exact absurd (show 0x55 ∈ d0 by rw [← hd]; simp) hf
    | packet hj' hw hs =>
      exfalso
      obtain ⟨hdr, ck, hh, rfl, hsum⟩ := hw
      rw [List.append_assoc, List.cons_append] at hd
      obtain ⟨rfl, rfl⟩ := filler_unique hj hj' hd
      exact hp ⟨_, _, _, ⟨hdr, ck, hh, rfl, hsum⟩, rfl⟩
    | skip hj' hp' ho' hs' =>
      obtain ⟨rfl, rfl⟩ := filler_unique hj hj' hd
      exact ih hs' hb

/-- One frame that the packet loop survives. -/
theorem processFrame_safe {σ : Type} (D : Device σ) (clock : Clock) (s : Srv σ) (f : Slice) (hs : SafeFrame f.data) :
    ∃ ps m cmds c news, (∀ spare, Scan spare f.data ps false) ∧ Decoded s.mode ps m cmds ∧
      HandledEach D clock cmds { s.ctx with out := [] } c news ∧
      processFrame D clock s f = .ret (⟨m, { c with out := [] }⟩, news.flatten.map fun x => frameOf (marshalCmd m x).2) := by
  cases hp : processFrame D clock s f with
  | panic =>
    exfalso
    cases hr : readCommands s.mode f with
    | panic => exact readCommands_safe hs s.mode hr
    | ret x =>
      rw [processFrame, hr, Out.bind_ret] at hp
      obtain ⟨c, news, h1, _⟩ := handleAll_ret D clock x.2 { s.ctx with out := [] }
      rw [h1] at hp
      cases hp
  | ret x =>
    obtain ⟨s', w⟩ := x
    obtain ⟨ps, m, cmds, c, news, rs, h1, h2, h3, h4, rfl, h5⟩ := processFrame_ret (d := f.data) (spare := f.spare) hp
    obtain ⟨e1, rfl⟩ := encoded_const h4 (fun x hx => by
      obtain ⟨cmd, hc, a, b, new, hh, hx⟩ := handledEach_mem h3 x hx
      exact emitted_no_switch (decoded_received h2 cmd hc) hh x hx)
    refine ⟨ps, m, cmds, c, news, ?_, h2, h3, ?_⟩
    · intro spare
      obtain ⟨ps', h6, _⟩ := hs spare
      rw [scan_spare h1 h6]
      exact h6
    · obtain ⟨m', c'⟩ := s'
      simp only at e1 h5
      rw [e1, h5, List.map_map]
      rfl

theorem goodReports_data (reads : List ReadRes) :
    goodReports 0 reads = (recordedData reads).map rawOf := by
  simp only [goodReports, recordedData, List.replicate_zero, List.append_nil, List.map_map]
  apply List.map_congr_left
  intro x hx
  obtain ⟨h1, h2⟩ := List.mem_filter.1 hx
  have h2 : Recorded x := by simpa using h2
  obtain ⟨d, err⟩ := x
  obtain ⟨rfl, _⟩ := h2
  simp only [Function.comp, rawOf, rawReadReport, List.take_take]
  rfl

theorem suffix_unique {α : Type} {a b c d l : List α} (h1 : l = a ++ b) (h2 : l = c ++ d) (h : b.length = d.length) : a = c ∧ b = d := by
  refine List.append_inj (h1.symm.trans h2) ?_
  have e1 := congrArg List.length h1
  have e2 := congrArg List.length h2
  simp only [List.length_append] at e1 e2
  omega

theorem recordedData_append (a b : List ReadRes) : recordedData (a ++ b) = recordedData a ++ recordedData b := by simp [recordedData]

theorem readsOf_append (a b : List TOp) : readsOf (a ++ b) = readsOf a ++ readsOf b := by simp [readsOf]

theorem readsOf_reads (rs : List ReadRes) : readsOf (rs.map .read) = rs := by
  induction rs with
  | nil => rfl
  | cons r rs ih => exact congrArg (r :: ·) ih

theorem readsOf_writes (fails : Fails) (i : Nat) (rs : List Report) : readsOf (writeOps fails i rs) = [] := by
  induction rs generalizing i with
  | nil => rfl
  | cons r rs ih => exact ih (i + 1)

theorem mem_writeOps {fails : Fails} {i : Nat} {rs : List Report} {op : TOp} (h : op ∈ writeOps fails i rs) :
    ∃ r ∈ rs, ∃ res, op = .write (rawReportBytes r) res := by
  induction rs generalizing i with
  | nil => cases h
  | cons r rs ih =>
    rw [writeOps] at h
    rcases List.mem_cons.1 h with rfl | h
    · exact ⟨r, by simp, _, rfl⟩
    · obtain ⟨r', h1, h2⟩ := ih h
      exact ⟨r', by simp [h1], h2⟩

/-- The messages of operations. -/
def msgsOf (ps : List (Trace.Dir × Bytes)) : List Msg := ps.map fun p => ⟨p.1, 0, p.2⟩

/-- The commands sent with their frames and reports. -/
def answersOf (m : Bool) (cmds : List Command) (rss : List (List Report)) : List Answer :=
  (cmds.zip rss).map fun p => ⟨p.1, frameOf (marshalCmd m p.1).2, p.2⟩

theorem answersOf_spec {defs : List ReportDef} {m : Bool} (cmds : List Command) (rss : List (List Report))
    (hl : rss.length = cmds.length)
    (hc : ∀ p ∈ (cmds.map fun x => frameOf (marshalCmd m x).2).zip rss, Carries defs p.1 p.2) :
    (answersOf m cmds rss).map (·.cmd) = cmds ∧ (∀ a ∈ answersOf m cmds rss, AnswerIn defs m a) ∧
    (answersOf m cmds rss).map (·.frame) = cmds.map (fun x => frameOf (marshalCmd m x).2) ∧
    (answersOf m cmds rss).flatMap (·.reports) = rss.flatten := by
  induction cmds generalizing rss with
  | nil =>
    have : rss = [] := List.length_eq_zero_iff.1 (by simpa using hl)
    subst this
    exact ⟨rfl, by simp [answersOf], rfl, rfl⟩
  | cons x cmds ih =>
    cases rss with
    | nil => simp at hl
    | cons rs rss =>
      obtain ⟨h1, h2, h3, h4⟩ := ih rss (by simpa using hl) (fun p hp => hc p (by
        simp only [List.map_cons, List.zip_cons_cons, List.mem_cons]; exact .inr hp))
      have e : answersOf m (x :: cmds) (rs :: rss) = ⟨x, frameOf (marshalCmd m x).2, rs⟩ :: answersOf m cmds rss := rfl
      rw [e]
      refine ⟨by rw [List.map_cons, h1], ?_, by rw [List.map_cons, h3]; rfl, by rw [List.flatMap_cons, h4]; rfl⟩
      intro a ha
      rcases List.mem_cons.1 ha with rfl | ha
      · refine ⟨frameOf_nil_iff, ?_, hc (frameOf (marshalCmd m x).2, rs) (by simp)⟩
        intro p hp hp1 hp2
        have := frameOf_frameFor (r := (marshalCmd m x).2) (fun q hq => by
          rw [hp] at hq; cases hq; exact ⟨marshal_ne_nil hp, hp1, hp2⟩)
        rw [hp] at this
        simp only
        rw [hp]
        generalize frameOf (.ok p) = w at this
        cases this with
        | packet hw => exact hw
      · exact h2 a ha

theorem moved_sent (sent : List Answer) :
    msgsOf (sent.flatMap fun a => a.reports.map fun r => ((1 : Trace.Dir), r.id :: r.linkControl :: r.data)) =
      (sent.flatMap (·.reports)).map fun r => ⟨1, 0, r.id :: r.linkControl :: r.data⟩ := by
  simp only [msgsOf, List.map_flatMap, List.map_map]
  rfl

/-- A session, exchange by exchange. -/
theorem session_talk {σ : Type} (D : Device σ) (clock : Clock) (grow : Growth) {defs : List ReportDef} (hg : GoodTable defs)
    (n : Nat) (reads : List ReadRes) (hn : reads.length = n) (hr : ∀ x ∈ reads, x.data.length ≤ 1024 ∧ x.err ≠ some .eof)
    (hf : FailsBetweenFrames defs reads)
    (hsafe : ∀ rs tail, Frames defs (recordedData reads) rs tail → ∀ f, .ok f ∈ rs → SafeFrame f)
    (l : Live σ) (hb : l.buf.reset = l.buf) (log : List Report) :
    ∃ es l' tail, Talk D clock defs l.srv es l'.srv ∧ recordedData reads = es.flatMap (·.used) ++ tail ∧ Unfinished defs tail ∧
      recordedMsgs (session D clock grow defs (fun _ => none) reads l log) =
        msgsOf (es.flatMap Round.moved ++ tail.map ((0, ·))) ∧
      Live.run D clock grow defs reads l = .ret (l', true) ∧
      l'.written = l.written ++ es.flatMap (fun e => e.sent.map (·.frame)) ∧
      readsOf (session D clock grow defs (fun _ => none) reads l log) = reads ∧
      ∀ p res, .write p res ∈ session D clock grow defs (fun _ => none) reads l log →
        ∃ e ∈ es, ∃ a ∈ e.sent, ∃ r ∈ a.reports, p = rawReportBytes r := by
  induction n using Nat.strongRecOn generalizing reads l log with
  | ind n ih =>
    subst hn
    cases reads with
    | nil => exact ⟨[], l, [], .nil, rfl, unfinished_nil, rfl, rfl, by simp, rfl, by simp [session]⟩
    | cons x reads =>
      have hmax : ∀ d ∈ defs, 1 ≤ d.len := fun d hd => by have := hg.carries d hd; omega
      by_cases hx : Recorded x
      · have key := readFrameLoop_good (grow := grow) 0 (x :: reads) (fun y hy => (hr y hy).1) hf (by simpa using hx) l.buf
        have hgood := goodReports_data (x :: reads)
        rcases key with ⟨h1, h2⟩ | ⟨live, b, y, h1, h2, h3, h4, pre, h5⟩ | ⟨b, h1, j, h2⟩
        · exfalso
          refine C33_no_panic grow defs hmax ((x :: reads).map rawReadReport) l.buf ?_
          rw [readFrame, hb, h1]
        · have hlive : ∀ z ∈ live, z ∈ x :: reads := fun z hz => by rw [h5]; simp [hz]
          rw [hgood, ← hb] at h2
          rcases readFrame_calls (recordedData (x :: reads)) 0 l.buf (by simpa [readFrame] using h2) with ⟨h6, _⟩ | ⟨_, used, bs', h6, h7, h8⟩
          · exact absurd h6 h3
          have hbs : recordedData live = bs' := by
            rw [goodReports_data live] at h7
            have hlen : (recordedData live).length = bs'.length := by simpa using congrArg List.length h7
            rw [h5, recordedData_append] at h6
            exact (suffix_unique h6 rfl hlen.symm).2.symm
          rcases session_call D clock grow (fun _ => none) (x :: reads) (fun z hz => (hr z hz).2) l log h1 with
            ⟨h9, _⟩ | ⟨_, ru, rest, h10, h11, h12, h13, h14⟩
          · exact absurd h9 h3
          obtain ⟨rfl, rfl⟩ := suffix_unique h10 h5 (by simpa using (congrArg List.length h12).symm)
          have hru : recordedData ru = used := by
            rw [h10, recordedData_append, hbs] at h6
            exact List.append_cancel_right h6
          have hf' : FailsBetweenFrames defs rest := by
            rintro p a c r2 rfl hc
            exact hf (ru ++ p) a c r2 (by rw [h10]; simp) hc
          have hsafe' : ∀ rs tail, Frames defs (recordedData rest) rs tail → ∀ f, .ok f ∈ rs → SafeFrame f := by
            intro rs tail hfr f hfm
            exact hsafe _ tail (by rw [h6, ← hbs]; exact .cons h8 hfr) f (by simp [hfm])
          have hrm : (ru.filter (fun x => decide (Recorded x))).map (fun x => (⟨0, 0, x.data⟩ : Msg)) =
              used.map (fun d => ⟨0, 0, d⟩) := by rw [← hru, recordedData, List.map_map]; rfl
          cases y with
          | error e =>
            obtain ⟨es, l', tail, i1, i2, i3, i4, i5, i6, i7, i8⟩ := ih rest.length h4 rest rfl
              (fun z hz => hr z (hlive z hz)) hf' hsafe' { l with buf := b.reset } (reset_reset b) log
            refine ⟨⟨used, .error e, [], l.srv.mode, []⟩ :: es, l', tail, .error h8 i1, ?_, i3, ?_, ?_, ?_, ?_, ?_⟩
            · rw [h6, ← hbs, i2, List.flatMap_cons, List.append_assoc]
            · rw [h13, afterCall, recordedMsgs_reads, i4, hrm, List.flatMap_cons]
              simp [msgsOf, Round.moved]
            · rw [h14, afterCallRun, i5]
            · rw [i6, List.flatMap_cons]; rfl
            · rw [h13, afterCall, readsOf_append, readsOf_reads, i7, h10]
            · intro p res hm
              rw [h13, afterCall] at hm
              rcases List.mem_append.1 hm with hm | hm
              · obtain ⟨_, _, h⟩ := List.mem_map.1 hm; cases h
              · obtain ⟨e', he', hh⟩ := i8 p res hm
                exact ⟨e', by simp [he'], hh⟩
          | ok f =>
            have hsf : SafeFrame f.data := by
              obtain ⟨rs, t, hfr⟩ := C58_frames_total hmax (recordedData rest)
              exact hsafe _ t (by rw [h6, ← hbs]; exact .cons h8 hfr) f.data (by simp [plain])
            obtain ⟨ps, m, cmds, c, news, p1, p2, p3, p4⟩ := processFrame_safe D clock l.srv f hsf
            obtain ⟨rss, q1, q2, q3⟩ := writeFrames_carries hg (news.flatten.map fun x => frameOf (marshalCmd m x).2)
            obtain ⟨a1, a2, a3, a4⟩ := answersOf_spec (m := m) news.flatten rss (by rw [q1, List.length_map]) q2
            have hframe : l.frame D clock f = .ret ⟨f.reset, ⟨m, { c with out := [] }⟩,
                l.written ++ news.flatten.map fun x => frameOf (marshalCmd m x).2⟩ := by
              rw [Live.frame, p4]; rfl
            obtain ⟨es, l', tail, i1, i2, i3, i4, i5, i6, i7, i8⟩ := ih rest.length h4 rest rfl
              (fun z hz => hr z (hlive z hz)) hf' hsafe' ⟨f.reset, ⟨m, { c with out := [] }⟩,
                l.written ++ news.flatten.map fun x => frameOf (marshalCmd m x).2⟩ (reset_reset f) (log ++ rss.flatten)
            have hafter : afterCall D clock grow defs (fun _ => none) rest l log b (.ok f) =
                writeOps (fun _ => none) log.length rss.flatten ++ session D clock grow defs (fun _ => none) rest
                  ⟨f.reset, ⟨m, { c with out := [] }⟩, l.written ++ news.flatten.map fun x => frameOf (marshalCmd m x).2⟩
                  (log ++ rss.flatten) := by
              rw [afterCall, hframe]
              simp only [List.drop_left', q3]
            refine ⟨⟨used, .ok f.data, cmds, m, answersOf m news.flatten rss⟩ :: es, l', tail,
              .frame h8 p1 p2 p3 a1 a2 i1, ?_, i3, ?_, ?_, ?_, ?_, ?_⟩
            · rw [h6, ← hbs, i2, List.flatMap_cons, List.append_assoc]
            · rw [h13, hafter, recordedMsgs_reads, recorded_writes, i4, hrm, List.flatMap_cons, ← a4, ← moved_sent]
              simp only [msgsOf, Round.moved, List.map_append, List.map_map, List.append_assoc]
              rfl
            · rw [h14, afterCallRun, hframe, Out.bind_ret, i5]
            · rw [i6, List.flatMap_cons, a3, List.append_assoc]
            · rw [h13, hafter, readsOf_append, readsOf_append, readsOf_reads, readsOf_writes, i7, h10]; rfl
            · intro p res hm
              rw [h13, hafter] at hm
              rcases List.mem_append.1 hm with hm | hm
              · obtain ⟨_, _, h⟩ := List.mem_map.1 hm; cases h
              · rcases List.mem_append.1 hm with hm | hm
                · obtain ⟨r, hr1, res', he⟩ := mem_writeOps hm
                  cases he
                  rw [← a4] at hr1
                  obtain ⟨a, ha, hra⟩ := List.mem_flatMap.1 hr1
                  exact ⟨_, List.mem_cons_self, a, ha, r, hra, rfl⟩
                · obtain ⟨e', he', hh⟩ := i8 p res hm
                  exact ⟨e', by simp [he'], hh⟩
        · rw [hgood, ← hb] at h2
          rcases readFrame_calls (recordedData (x :: reads)) 0 l.buf (by simpa [readFrame] using h2) with ⟨_, h6⟩ | ⟨h6, _⟩
          · rcases session_call D clock grow (fun _ => none) (x :: reads) (fun z hz => (hr z hz).2) l log h1 with
              ⟨_, h9, h10⟩ | ⟨h9, _⟩
            · refine ⟨[], { l with buf := b }, recordedData (x :: reads), .nil, rfl, h6, ?_, h10, by simp, by rw [h9, readsOf_reads], ?_⟩
              · rw [h9, ← List.append_nil ((x :: reads).map TOp.read), recordedMsgs_reads]
                simp only [recordedData, msgsOf, List.flatMap_nil, List.nil_append, List.map_map]
                exact List.append_nil _
              · intro p res hm
                rw [h9] at hm
                obtain ⟨_, _, h⟩ := List.mem_map.1 hm
                cases h
            · exact absurd rfl h9
          · exact absurd rfl h6
      · have hxe := rawReadReport_eof (hr x (by simp)).2
        have hxr : ∃ e, rawReadReport x = .error e := by
          obtain ⟨data, err⟩ := x
          cases err with
          | some e => exact ⟨e, rfl⟩
          | none =>
            have : data = [] := Classical.byContradiction fun h => hx ⟨rfl, h⟩
            subst this
            exact ⟨.noProgress, rfl⟩
        obtain ⟨e, hxr⟩ := hxr
        have hd : recordedData (x :: reads) = recordedData reads := by simp [recordedData, hx]
        have ho : l.onRead D clock grow defs x = .ret (some { l with buf := l.buf.reset }) := by
          simp only [Live.onRead, hxr]
          rw [if_neg (fun h => hxe (by rw [hxr, h]))]
        have hses : session D clock grow defs (fun _ => none) (x :: reads) l log =
            [x].map .read ++ session D clock grow defs (fun _ => none) reads { l with buf := l.buf.reset } log := by
          rw [session, ho]
          simp only [List.drop_length, writeFrames_nil, writeOps, List.nil_append]
          rfl
        obtain ⟨es, l', tail, i1, i2, i3, i4, i5, i6, i7, i8⟩ := ih reads.length (by simp) reads rfl
          (fun z hz => hr z (by simp [hz])) (fails_tail hf) (by rw [← hd]; exact hsafe) { l with buf := l.buf.reset }
          (reset_reset _) log
        refine ⟨es, l', tail, i1, by rw [hd, i2], i3, ?_, ?_, i6, ?_, ?_⟩
        · rw [hses, recordedMsgs_reads, i4]; simp [hx]
        · rw [Live.run, ho]; exact i5
        · rw [hses, readsOf_append, i7]; rfl
        · intro p res hm
          rw [hses] at hm
          rcases List.mem_append.1 hm with hm | hm
          · obtain ⟨_, _, h⟩ := List.mem_map.1 hm; cases h
          · exact i8 p res hm

/-! ### what is sent -/

/-- Neither an id that switches the mode nor one of those the decoder may not survive, and small enough for one byte. -/
def PlainId (p : Nat × Nat) : Prop :=
  p.2 < 256 ∧ p ≠ (0x00, 0x00) ∧ p ≠ (0x00, 0x13) ∧ p ≠ (0x00, 0x38) ∧ p ≠ (0x00, 0x39) ∧ p ≠ (0x00, 0x64)

instance (p : Nat × Nat) : Decidable (PlainId p) := by unfold PlainId; infer_instance

theorem answers_plain (l c : Nat) : ∀ a ∈ answers l c, ∀ p ∈ a, PlainId p := by
  intro a ha p hp
  simp only [answers, List.mem_cons, List.not_mem_nil, or_false] at ha
  repeat' split at ha
  all_goals
    simp only [List.mem_cons, List.not_mem_nil, or_false] at ha
    (try rcases ha with rfl | rfl | rfl) <;> (try rcases ha with rfl | rfl) <;> (try subst ha)
    all_goals
      simp only [List.mem_cons, List.not_mem_nil, or_false] at hp <;>
      (try rcases hp with rfl | rfl | rfl) <;> (try rcases hp with rfl | rfl) <;> (try subst hp) <;>
        (simp only [PlainId, ne_eq, Prod.mk.injEq]; omega)

/-- The ids of the commands the server sends. -/
theorem emitted_plain {σ : Type} {D : Device σ} {clock : Clock} {cmd : Command} {c c' : Ctx σ} {new : List Command}
    (hr : Received cmd) (h : Handles D clock cmd c c' new) (x : Command) (hx : x ∈ new) : PlainId (idPair x.id) := by
  cases hp : cmd.payload with
  | nil => rw [(C64_undecodable h hp).1] at hx; cases hx
  | ptr t v => exact answers_plain _ _ _ (C64_replies hr h hp) _ (List.mem_map_of_mem hx)
  | unknown b =>
    obtain ⟨h1, h2⟩ := h
    rcases handlePacket_of_lingo h1 with ⟨e, h1⟩ | ⟨e, h1⟩ | ⟨e, h1⟩ | ⟨e, h1⟩ | ⟨e, rfl⟩
    · rw [afterAudio, hp] at h1
      simp only [handleGeneral, hp, Ctx.ack, respond_eq, authComplete, Bool.false_eq_true, if_false] at h1
      cases h1
      rw [out1 h2, List.mem_singleton] at hx
      subst hx
      exact (by decide +kernel : PlainId (idPair (TypeId.gen GenT.ACK).id))
    · simp only [handleDispRemote, hp] at h1; cases h1; rw [out0 h2] at hx; cases hx
    · simp only [handleExtRemote, hp] at h1; cases h1; rw [out0 h2] at hx; cases hx
    · simp only [handleAudio, hp] at h1; cases h1; rw [out0 h2] at hx; cases hx
    · rw [out0 h2] at hx; cases hx

theorem unmarshalCmd_id {m : Bool} {p : Bytes} {x : Bool × Command × Option Err} {id : UInt32} {r : Bytes}
    (h : unmarshalCmd m p = .ret x) (hi : unmarshalLingoCmdID p = (.ok id, r)) : x.1 = handleCmdID m id ∧ x.2.1.id = id := by
  rw [unmarshalCmd_eq, hi] at h
  simp only at h
  split at h
  · cases h; exact ⟨rfl, rfl⟩
  · rename_i t _
    cases hd : decodePayload t r with
    | panic => rw [hd] at h; cases h
    | ret y => rw [hd, Out.bind_ret] at h; cases y <;> (cases h; exact ⟨rfl, rfl⟩)
  · rename_i t _
    split at h
    · rename_i r' _
      cases hd : decodePayload t r' with
      | panic => rw [hd] at h; cases h
      | ret y => rw [hd, Out.bind_ret] at h; cases y <;> (cases h; exact ⟨rfl, rfl⟩)
    · cases h; exact ⟨rfl, rfl⟩
    · cases h; exact ⟨rfl, rfl⟩

/-- The packet of a command the server sends, decoded again. -/
theorem sent_decodes {m : Bool} {x : Command} {p : Bytes} (hi : PlainId (idPair x.id)) (hp : (marshalCmd m x).2 = .ok p) :
    (∀ m', ¬ Malformed m' p) ∧ ∃ cmd err, unmarshalCmd m p = .ret (m, cmd, err) ∧ idPair cmd.id = idPair x.id := by
  rw [marshalCmd_eq] at hp
  cases he : encodePayload x.payload with
  | error e => rw [he] at hp; cases hp
  | ok b =>
    rw [he] at hp
    simp only [Except.ok.injEq, List.append_assoc] at hp
    obtain ⟨h0, h1, h2, h3, h4, h5⟩ := hi
    generalize hl : LingoCmdID.lingoID x.id = l at *
    generalize hc : LingoCmdID.cmdID x.id = c at *
    have hpair : idPair x.id = (l.toNat, c.toNat) := by rw [idPair, hl, hc]
    rw [hpair] at h0 h1 h2 h3 h4 h5
    simp only [ne_eq, Prod.mk.injEq, not_and] at h0 h1 h2 h3 h4 h5
    have hu := unmarshalLingoCmdID_idBytes l c (.inr h0) (trxBytes (sentTrx (handleCmdID m x.id) x.trx) ++ b)
    rw [hp] at hu
    have hbad : ∀ m', ¬ Malformed m' p := by
      rintro m' ⟨trx, _, ⟨body, hb, _⟩ | ⟨n, r, hb, _⟩⟩
      · have := (unmarshalLingoCmdID_short (pkt := p) (r := trx ++ body) (l := 0x00) (c := 0x64) (by decide)).2 (by rw [hb]; simp)
        rw [hu] at this
        obtain ⟨rfl, rfl⟩ := idOf_inj (Except.ok.inj (Prod.mk.inj this).1)
        exact h5 rfl (by decide)
      · have := (unmarshalLingoCmdID_short (pkt := p) (r := trx ++ n :: r) (l := 0x00) (c := 0x39) (by decide)).2 (by rw [hb]; simp)
        rw [hu] at this
        obtain ⟨rfl, rfl⟩ := idOf_inj (Except.ok.inj (Prod.mk.inj this).1)
        exact h4 rfl (by decide)
    refine ⟨hbad, ?_⟩
    cases hr : unmarshalCmd m p with
    | panic => exact absurd ((malformed_iff m p).1 hr) (hbad m)
    | ret y =>
      obtain ⟨m', cmd, err⟩ := y
      obtain ⟨e1, e2⟩ := unmarshalCmd_id hr hu
      refine ⟨cmd, err, ?_, ?_⟩
      · simp only at e1
        rw [switch_eq] at e1
        have hn : switchOfId (idOf l c) = none := by
          rw [switchOfId, if_neg, if_neg, if_neg]
          · intro h; obtain ⟨rfl, rfl⟩ := idOf_inj h; exact h3 rfl (by decide)
          · intro h; obtain ⟨rfl, rfl⟩ := idOf_inj h; exact h2 rfl (by decide)
          · intro h; obtain ⟨rfl, rfl⟩ := idOf_inj h; exact h1 rfl (by decide)
        rw [hn] at e1
        simp only [Option.getD_none] at e1
        rw [e1]
      · simp only at e2
        rw [e2, hpair, idPair, lingoID_idOf, cmdID_idOf]

/-- The frame of a packet the decoder survives, with zeros behind it. -/
theorem packet_frame {p w pad : Bytes} (hw : IsPacket p w) (hz : Zeros pad) :
    (∀ spare, Scan spare (w ++ pad) [p] false) ∧ ((∀ m, ¬ Malformed m p) → SafeFrame (w ++ pad)) := by
  have hs : ∀ spare, Scan spare (w ++ pad) [p] false := fun spare =>
    .packet (j := []) (rest := pad) (by simp [Filler]) hw (.done (fun h => by have := hz _ h; cases this))
  exact ⟨hs, fun hm spare => ⟨[p], hs spare, by simpa using hm⟩⟩

/-! ### viewing -/

/-- Direction and data of a message. -/
def pairOf (m : Msg) : Trace.Dir × Bytes := (m.dir, m.data)

theorem taken_all {d : Trace.Dir} {bs : List Bytes} {ms1 ms2 : List Msg} (h : ms1.map pairOf = bs.map ((d, ·))) :
    Taken d bs (ms1 ++ ms2) ms2 := by
  induction bs generalizing ms1 with
  | nil =>
    rw [List.map_eq_nil_iff.1 h]
    exact .nil
  | cons b bs ih =>
    cases ms1 with
    | nil => cases h
    | cons m ms1 =>
      simp only [List.map_cons, List.cons.injEq, pairOf, Prod.mk.injEq] at h
      obtain ⟨⟨h1, rfl⟩, h2⟩ := h
      exact .take h1 (ih h2)

theorem viewing_call {defs : List ReportDef} {d : Trace.Dir} {used : List Bytes} {r : Except Err Bytes} {ms1 ms2 : List Msg}
    {evs : List (Trace.Dir × Except Err Bytes)} (hc : OneCall defs used r) (h : ms1.map pairOf = used.map ((d, ·)))
    (hv : Viewing defs ms2 evs) : Viewing defs (ms1 ++ ms2) ((d, r) :: evs) := by
  have ht := taken_all (ms2 := ms2) h
  have hne := oneCall_ne_nil hc
  cases ms1 with
  | nil => exact absurd (List.map_eq_nil_iff.1 h.symm) hne
  | cons m ms1 =>
    have hd : m.dir = d := by
      cases used with
      | nil => exact absurd rfl hne
      | cons b bs => simp only [List.map_cons, List.cons.injEq, pairOf, Prod.mk.injEq] at h; exact h.1.1
    subst hd
    exact .frame hc ht hv

/-- The bytes of a report. -/
def bytesOf (r : Report) : Bytes := r.id :: r.linkControl :: r.data

theorem carries_call {defs : List ReportDef} (hg : GoodTable defs) (hmax : ∀ d ∈ defs, d.maxPayload ≤ 1022) {frame : Bytes}
    {rs : List Report} (h : Carries defs frame rs) (hf : frame ≠ []) :
    ∃ pad, Zeros pad ∧ OneCall defs (rs.map bytesOf) (.ok (frame ++ pad)) := by
  rcases h with ⟨h, _⟩ | ⟨_, _, h1, pad, h2, h3⟩
  · exact absurd h hf
  · refine ⟨pad, h2, .frame ?_ h3⟩
    rw [List.map_map]
    apply List.map_congr_left
    intro r hr
    obtain ⟨d, hd, hb⟩ := h1 r hr
    have e1 := hmax d hd
    have e2 := hg.carries d hd
    have e3 := hb.2.2
    have e4 : d.maxPayload = d.len - 1 := rfl
    obtain ⟨id, lc, data⟩ := r
    simp only at e3
    simp only [Function.comp, bytesOf, reportOf]
    rw [List.take_of_length_le (by simp only [List.length_cons]; omega)]
    cases data with
    | nil => simp only [List.length_nil] at e3; omega
    | cons x data => rfl

/-- The frames the viewer finds of what was sent. -/
inductive SentFrames (m : Bool) : List Answer → List Bytes → Prop
  | nil : SentFrames m [] []
  | lost {a as fs e} : (marshalCmd m a.cmd).2 = .error e → SentFrames m as fs → SentFrames m (a :: as) fs
  | packet {a as fs p pad} : (marshalCmd m a.cmd).2 = .ok p → PlainId (idPair a.cmd.id) → IsPacket p a.frame → Zeros pad →
      SentFrames m as fs → SentFrames m (a :: as) ((a.frame ++ pad) :: fs)

/-- The frames the viewer finds of a session. -/
inductive TalkFrames : List Round → List (Trace.Dir × Except Err Bytes) → Prop
  | nil : TalkFrames [] []
  | cons {e es fs evs} : SentFrames e.mode e.sent fs → TalkFrames es evs →
      TalkFrames (e :: es) ((0, e.got) :: (fs.map (fun f => (1, .ok f)) ++ evs))

theorem sentFrames_safe {m : Bool} {as : List Answer} {fs : List Bytes} (h : SentFrames m as fs) : ∀ f ∈ fs, SafeFrame f := by
  induction h with
  | nil => simp
  | lost _ _ ih => exact ih
  | packet h1 h2 h3 h4 _ ih =>
    intro f hf
    rcases List.mem_cons.1 hf with rfl | hf
    · exact (packet_frame h3 h4).2 (sent_decodes h2 h1).1
    · exact ih f hf

/-- What of a list of answers is to fit into packets. -/
def FitsIn (m : Bool) (a : Answer) : Prop := ∀ p, (marshalCmd m a.cmd).2 = .ok p → p.length ≤ 65535 ∧ p.length ≠ 256

theorem sent_view {defs : List ReportDef} (hg : GoodTable defs) (hmax : ∀ d ∈ defs, d.maxPayload ≤ 1022) {m : Bool}
    (sent : List Answer) (h : ∀ a ∈ sent, AnswerIn defs m a ∧ PlainId (idPair a.cmd.id) ∧ FitsIn m a) :
    ∃ fs, SentFrames m sent fs ∧
      (∀ ms1 ms2 evs, ms1.map pairOf = (sent.flatMap fun a => a.reports.map fun r => ((1 : Trace.Dir), bytesOf r)) →
        Viewing defs ms2 evs → Viewing defs (ms1 ++ ms2) (fs.map (fun f => (1, .ok f)) ++ evs)) ∧
      ∀ bs rs tail, Frames defs bs rs tail → Frames defs ((sent.flatMap fun a => a.reports.map bytesOf) ++ bs) (fs.map .ok ++ rs) tail := by
  induction sent with
  | nil =>
    refine ⟨[], .nil, ?_, fun bs rs tail h => h⟩
    intro ms1 ms2 evs h1 h2
    rw [List.map_eq_nil_iff.1 h1]
    exact h2
  | cons a sent ih =>
    obtain ⟨fs, i1, i2, i3⟩ := ih (fun a ha => h a (by simp [ha]))
    obtain ⟨h1, h2, h3⟩ := h a (by simp)
    cases hp : (marshalCmd m a.cmd).2 with
    | error e =>
      have hr : a.reports = [] := by
        rcases h1.reports with ⟨_, h⟩ | ⟨h, _⟩
        · exact h
        · exact absurd (h1.nothing.2 ⟨e, hp⟩) h
      refine ⟨fs, .lost hp i1, ?_, ?_⟩
      · intro ms1 ms2 evs h4 h5
        rw [List.flatMap_cons, hr] at h4
        exact i2 ms1 ms2 evs h4 h5
      · intro bs rs tail h4
        rw [List.flatMap_cons, hr]
        exact i3 bs rs tail h4
    | ok p =>
      have hf : a.frame ≠ [] := fun h => by obtain ⟨e, he⟩ := h1.nothing.1 h; rw [hp] at he; cases he
      obtain ⟨pad, hz, hc⟩ := carries_call hg hmax h1.reports hf
      refine ⟨(a.frame ++ pad) :: fs, .packet hp h2 (h1.packet p hp (h3 p hp).1 (h3 p hp).2) hz i1, ?_, ?_⟩
      · intro ms1 ms2 evs h4 h5
        rw [List.flatMap_cons] at h4
        obtain ⟨ma, mb, rfl, h6, h7⟩ := List.map_eq_append_iff.1 h4
        rw [List.append_assoc]
        exact viewing_call hc (by rw [h6, List.map_map]; rfl) (i2 mb ms2 evs h7 h5)
      · intro bs rs tail h4
        rw [List.flatMap_cons, List.append_assoc]
        exact .cons hc (i3 bs rs tail h4)

theorem viewing_tail {defs : List ReportDef} {tail : List Bytes} (hu : Unfinished defs tail) {ms : List Msg}
    (h : ms.map pairOf = tail.map (((0 : Trace.Dir), ·))) : Viewing defs ms [] := by
  cases ms with
  | nil => exact .done
  | cons m ms =>
    have hall : ∀ (ms : List Msg) (tail : List Bytes), ms.map pairOf = tail.map (((0 : Trace.Dir), ·)) →
        ofDir 0 ms = tail := by
      intro ms
      induction ms with
      | nil => intro tail h; rw [List.map_eq_nil_iff.1 h.symm]; rfl
      | cons m ms ih =>
        intro tail h
        cases tail with
        | nil => cases h
        | cons b tail =>
          simp only [List.map_cons, List.cons.injEq, pairOf, Prod.mk.injEq] at h
          have := ih tail h.2
          simp only [ofDir, List.filter_cons, h.1.1, decide_true, if_true, List.map_cons, h.1.2, List.cons.injEq, true_and]
          exact this
    have hd : m.dir = 0 := by
      cases tail with
      | nil => cases h
      | cons b tail => simp only [List.map_cons, List.cons.injEq, pairOf, Prod.mk.injEq] at h; exact h.1.1
    refine .cut ?_
    rw [hd, hall _ _ h]
    exact hu

/-- What the viewer needs to know of the rounds of a session. -/
def Viewable (defs : List ReportDef) (e : Round) : Prop :=
  OneCall defs e.used e.got ∧ ∀ a ∈ e.sent, AnswerIn defs e.mode a ∧ PlainId (idPair a.cmd.id)

theorem talk_viewable {σ : Type} {D : Device σ} {clock : Clock} {defs : List ReportDef} {s s' : Srv σ} {es : List Round}
    (h : Talk D clock defs s es s') : ∀ e ∈ es, Viewable defs e := by
  induction h with
  | nil => simp
  | error h1 _ ih =>
    intro e he
    rcases List.mem_cons.1 he with rfl | he
    · exact ⟨h1, by simp⟩
    · exact ih e he
  | @frame s s' used f ps m cmds c news sent es h1 h2 h3 h4 h5 h6 _ ih =>
    intro e he
    rcases List.mem_cons.1 he with rfl | he
    · refine ⟨h1, fun a ha => ⟨h6 a ha, ?_⟩⟩
      have hx : a.cmd ∈ news.flatten := by rw [← h5]; exact List.mem_map_of_mem ha
      obtain ⟨cmd, hc, c1, c2, new, hh, hx⟩ := handledEach_mem h4 a.cmd hx
      exact emitted_plain (decoded_received h3 cmd hc) hh _ hx
    · exact ih e he

/-- What the viewer does with rounds. -/
theorem rounds_view {defs : List ReportDef} (hg : GoodTable defs) (hmax : ∀ d ∈ defs, d.maxPayload ≤ 1022) {es : List Round}
    (h : ∀ e ∈ es, Viewable defs e) (hfit : ∀ e ∈ es, ∀ a ∈ e.sent, FitsIn e.mode a) {tail : List Bytes} (hu : Unfinished defs tail) :
    ∃ evs, TalkFrames es evs ∧
      (∀ ms, ms.map pairOf = es.flatMap Round.moved ++ tail.map ((0, ·)) → Viewing defs ms evs) ∧
      Frames defs (es.flatMap (·.used) ++ tail) (es.map (·.got)) tail ∧
      ∃ fs : List Bytes, (∀ f ∈ fs, SafeFrame f) ∧
        Frames defs (es.flatMap fun e => e.sent.flatMap fun a => a.reports.map bytesOf) (fs.map .ok) [] := by
  induction es with
  | nil =>
    exact ⟨[], .nil, fun ms hm => viewing_tail hu hm, .tail hu, [], by simp, .tail unfinished_nil⟩
  | cons e es ih =>
    obtain ⟨evs, i1, i2, i3, fs, i4, i5⟩ := ih (fun e he => h e (by simp [he])) (fun e he => hfit e (by simp [he]))
    obtain ⟨h1, h2⟩ := h e (by simp)
    obtain ⟨fs', j1, j2, j3⟩ := sent_view hg hmax (m := e.mode) e.sent
      (fun a ha => ⟨(h2 a ha).1, (h2 a ha).2, hfit _ List.mem_cons_self a ha⟩)
    refine ⟨_, .cons j1 i1, ?_, ?_, fs' ++ fs, ?_, ?_⟩
    · intro ms hm
      rw [List.flatMap_cons, List.append_assoc, Round.moved, List.append_assoc] at hm
      obtain ⟨ma, mb, rfl, h7, h8⟩ := List.map_eq_append_iff.1 hm
      obtain ⟨mc, md, rfl, h9, h10⟩ := List.map_eq_append_iff.1 h8
      exact viewing_call h1 h7 (j2 mc md evs h9 (i2 md h10))
    · rw [List.flatMap_cons, List.append_assoc]
      exact .cons h1 i3
    · intro g hg'
      rcases List.mem_append.1 hg' with hg' | hg'
      · exact sentFrames_safe j1 g hg'
      · exact i4 g hg'
    · rw [List.flatMap_cons, List.map_append]
      exact j3 _ _ _ i5

/-- What the viewer does with a session. -/
theorem talk_view {σ : Type} {D : Device σ} {clock : Clock} {defs : List ReportDef} (hg : GoodTable defs)
    (hmax : ∀ d ∈ defs, d.maxPayload ≤ 1022) {s s' : Srv σ} {es : List Round} (h : Talk D clock defs s es s')
    (hfit : ∀ e ∈ es, ∀ a ∈ e.sent, FitsIn e.mode a) {tail : List Bytes} (hu : Unfinished defs tail) :
    ∃ evs, TalkFrames es evs ∧
      (∀ ms, ms.map pairOf = es.flatMap Round.moved ++ tail.map ((0, ·)) → Viewing defs ms evs) ∧
      Frames defs (es.flatMap (·.used) ++ tail) (es.map (·.got)) tail ∧
      ∃ fs : List Bytes, (∀ f ∈ fs, SafeFrame f) ∧
        Frames defs (es.flatMap fun e => e.sent.flatMap fun a => a.reports.map bytesOf) (fs.map .ok) [] :=
  rounds_view hg hmax (talk_viewable h) hfit hu

/-- The commands shown of what was sent. -/
theorem sent_shown {m : Bool} {as : List Answer} {fs : List Bytes} (h : SentFrames m as fs)
    {evs : List (Trace.Dir × Except Err Bytes)} {shown : List Shown}
    (he : shown.map (fun e => (e.dir, e.frame)) = fs.map (fun f => (1, .ok f)) ++ evs) (hc : ShownCmds m shown) :
    ∃ s1 s2, shown = s1 ++ s2 ∧ ShownAnswers m as s1 ∧ ShownCmds m s2 ∧ s2.map (fun e => (e.dir, e.frame)) = evs := by
  induction h generalizing shown with
  | nil => exact ⟨[], shown, rfl, .nil, hc, he⟩
  | lost h1 _ ih =>
    obtain ⟨s1, s2, i1, i2, i3, i4⟩ := ih he hc
    exact ⟨s1, s2, i1, .lost h1 i2, i3, i4⟩
  | @packet a as fs p pad h1 h2 h3 h4 _ ih =>
    cases hc with
    | nil => cases he
    | error => simp at he
    | @frame _ m' d f spare ps cmds evs' g1 g2 g3 =>
      simp only [List.map_cons, List.cons_append, List.cons.injEq, Prod.mk.injEq, Except.ok.injEq] at he
      obtain ⟨⟨rfl, rfl⟩, he⟩ := he
      have := scan_spare g1 ((packet_frame h3 h4).1 [])
      subst this
      obtain ⟨_, cmd, err, k1, k2⟩ := sent_decodes h2 h1
      cases g2 with
      | cons q1 q2 =>
        rw [k1] at q1
        simp only [Out.ret.injEq, Prod.mk.injEq] at q1
        obtain ⟨rfl, rfl, rfl⟩ := q1
        cases q2
        obtain ⟨s1, s2, i1, i2, i3, i4⟩ := ih he g3
        exact ⟨_ :: s1, s2, by rw [i1]; rfl, .packet h1 k1 k2 h4 i2, i3, i4⟩

theorem talk_shown {σ : Type} {D : Device σ} {clock : Clock} {defs : List ReportDef} {s s' : Srv σ} {es : List Round}
    (h : Talk D clock defs s es s') {evs : List (Trace.Dir × Except Err Bytes)} (ht : TalkFrames es evs) {shown : List Shown}
    (he : shown.map (fun e => (e.dir, e.frame)) = evs) (hc : ShownCmds s.mode shown) : ShownTalk es shown := by
  induction h generalizing evs shown with
  | nil =>
    cases ht
    rw [List.map_eq_nil_iff.1 he]
    exact .nil
  | error _ _ ih =>
    cases ht with
    | cons h1 h2 =>
      cases h1
      cases hc with
      | nil => cases he
      | frame => simp at he
      | error hc =>
        simp only [List.map_cons, List.map_nil, List.nil_append, List.cons.injEq, Prod.mk.injEq, Except.error.injEq] at he
        obtain ⟨⟨rfl, rfl⟩, he⟩ := he
        exact ShownTalk.cons (evs := []) (e := ⟨_, .error _, [], _, []⟩) .nil (ih h2 he hc)
  | @frame s s' used f ps m cmds c news sent es g1 g2 g3 g4 g5 g6 _ ih =>
    cases ht with
    | cons h1 h2 =>
      cases hc with
      | nil => cases he
      | error => simp at he
      | frame k1 k2 k3 =>
        simp only [List.map_cons, List.cons.injEq, Prod.mk.injEq, Except.ok.injEq] at he
        obtain ⟨⟨rfl, rfl⟩, he⟩ := he
        have := scan_spare k1 (g2 [])
        subst this
        obtain ⟨rfl, rfl⟩ := decoded_unique k2 g3
        obtain ⟨s1, s2, i1, i2, i3, i4⟩ := sent_shown h1 he k3
        subst i1
        exact .cons i2 (ih h2 i4 i3)

end Ipod
