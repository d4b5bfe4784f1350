import Verif.Props.Record
import Verif.Lemmas.Course

/-! Sessions on any device: reads and writes may fail, the server may stop or panic (C87, continued). -/

namespace Props
open Go Spec Ipod Ipod.Hid Ipod.Trace

/-- C87, the trace, for all sessions: exchange after exchange it contains the reads that gave something, the last of which
completes a frame or ends in an error, then of the answers to that frame those reports the device took; at the end the reads since
the last frame. The server has then written the frames of all answers, or has panicked at a frame that overruns or is malformed. -/
theorem C87_trace {σ : Type} (D : Device σ) (clock : Clock) (grow : Growth) {defs : List ReportDef} (hg : GoodTable defs)
    (fails : Fails) (reads : List ReadRes) (s : Srv σ) :
    ∃ es fin, Course D clock defs s reads es fin ∧ serve D clock grow defs reads s = fin.outcome es ∧
      sessionTrace D clock grow defs fails reads s =
        traceText ((courseData fails 0 es fin.last).map fun p => ⟨p.1, 0, p.2⟩) := by
  obtain ⟨es, fin, h1, h2, h3⟩ := session_course D clock grow hg fails _ reads rfl (Live.start s) rfl []
  refine ⟨es, fin, h1, ?_, by rw [sessionTrace, recorded_text, h2]; rfl⟩
  rw [← C74_online D clock grow defs (fun d hd => by have := hg.carries d hd; omega), observed]
  cases fin with
  | waits s' last =>
    obtain ⟨l, h4, rfl, h5⟩ := h3
    rw [h4, Out.bind_ret, h5]; rfl
  | stops s' last =>
    obtain ⟨l, h4, rfl, h5⟩ := h3
    rw [h4, Out.bind_ret, h5]; rfl
  | panics last =>
    rw [show Live.run D clock grow defs reads (Live.start s) = .panic from h3]; rfl

/-- A session with half a frame, a read that fails, a request whose answer the device refuses, the same with an answer it takes, and
a frame the server does not survive. -/
example :
    let reads : List ReadRes := [⟨[0x01, 0x02, 0x55, 0x02, 0x00], none⟩, ⟨[], some .noProgress⟩,
      ⟨[0x01, 0x00, 0x55, 0x02, 0x00, 0x11, 0xED], none⟩, ⟨[0x01, 0x00, 0x55, 0x02, 0x00, 0x11, 0xED], none⟩,
      ⟨[0x01, 0x00, 0x55, 0xff, 0x01, 0x02], none⟩, ⟨[0x01, 0x00, 0x55, 0x02, 0x00, 0x11, 0xED], none⟩]
    let fails : Fails := fun i => if i = 0 then some .noProgress else none
    GoodTable defaultReportDefs ∧
    (serve devGeneral (fun _ => ⟨2024, 1, 2, 3, 4⟩) (fun _ n => n) defaultReportDefs reads (Srv.init DevGeneral.zero) >>=
        fun x => .ret x.2) = .panic ∧
    ((recordedMsgs (session devGeneral (fun _ => ⟨2024, 1, 2, 3, 4⟩) (fun _ n => n) defaultReportDefs fails reads
        (Live.start (Srv.init DevGeneral.zero)) [])).map fun m => (m.dir, m.data.take 9)) =
      [(0, [0x01, 0x02, 0x55, 0x02, 0x00]), (0, [0x01, 0x00, 0x55, 0x02, 0x00, 0x11, 0xED]),
       (0, [0x01, 0x00, 0x55, 0x02, 0x00, 0x11, 0xED]), (1, [0x01, 0x00, 0x55, 0x04, 0x00, 0x12, 0xFF, 0xFF, 0xEC]),
       (0, [0x01, 0x00, 0x55, 0xff, 0x01, 0x02])] :=
  ⟨goodTable_default, by decide +kernel, by decide +kernel⟩

/-- C87, the viewer, on a device that may refuse answers, but takes none in part: it shows of every round the frame received with
the commands the server took from it, then the answers the device took; nothing else. Missing: what `C87_view_partial` misses, and
answers taken in part. -/
theorem C87_view_writes_partial {σ : Type} (D : Device σ) (clock : Clock) (grow : Growth) {defs : List ReportDef}
    (hg : GoodTable defs) (hmax : ∀ d ∈ defs, d.maxPayload ≤ 1022) (fails : Fails) {reads : List ReadRes}
    (hr : Recordable defs reads) (s : Srv σ) (hs : s.mode = false) :
    ∃ es s' tail, Talk D clock defs s es s' ∧ recordedData reads = es.flatMap (·.used) ++ tail ∧ Unfinished defs tail ∧
      serve D clock grow defs reads s = .ret (s', es.flatMap (fun e => e.sent.map (·.frame))) ∧
      (WholeRounds fails 0 es → PacketsFit (tookRounds fails 0 es) → ∀ (grow' : Growth) (fuel : Nat),
        (talkMsgs (tookRounds fails 0 es) tail).length < fuel → ∃ shown,
          dumpTrace grow' defs fuel (newReader (sessionTrace D clock grow defs fails reads s) none) = .ok (.ret (some shown)) ∧
          ShownTalk (tookRounds fails 0 es) shown) := by
  have hlen : ∀ d ∈ defs, 1 ≤ d.len := fun d hd => by have := hg.carries d hd; omega
  let kept := reads.filter (fun x => decide (Recorded x))
  have hkept : ∀ x ∈ kept, Recorded x := fun x hx => by simpa using (List.mem_filter.1 hx).2
  have hgood : (recordedData reads).map good = kept := by
    rw [recordedData, List.map_map]
    conv => rhs; rw [← List.map_id kept]
    apply List.map_congr_left
    intro x hx
    obtain ⟨d, err⟩ := x
    have := (hkept _ hx).1
    simp only at this
    subst this
    rfl
  have hne : ∀ b ∈ recordedData reads, b ≠ [] := by
    intro b hb
    obtain ⟨x, hx, rfl⟩ := List.mem_map.1 hb
    exact (hkept x hx).2
  obtain ⟨xs, fin, c1, c2, c3⟩ := session_course D clock grow hg fails _ kept rfl (Live.start s) rfl []
  obtain ⟨es, s', tail, h1, h2, h3, rfl, rfl⟩ := course_talk hlen c1 hgood hr.safe
  have hframes : (es.map toVisit).flatMap (fun e => e.sent.map (·.frame)) = es.flatMap fun e => e.sent.map (·.frame) := by
    rw [List.flatMap_map]; rfl
  refine ⟨es, s', tail, h1, h2, h3, ?_, ?_⟩
  · have hrun := run_unnoticed D clock grow reads hr.delivered hr.fails (alike_start defs _ s)
    obtain ⟨l, e1, e2, e3⟩ := c3
    rw [serve_seen D clock grow hlen, observed, hrun, e1]
    simp only [seen, Out.bind_ret, e2, e3, Live.start, List.nil_append, hframes]
  · intro hw hfit grow' fuel hfuel
    have h4 : recordedMsgs (session D clock grow defs fails reads (Live.start s) []) = talkMsgs (tookRounds fails 0 es) tail := by
      rw [session_unnoticed D clock grow fails reads hr.delivered hr.fails (alike_start defs _ s)]
      refine c2.trans ?_
      rw [msgsOf, List.length_nil, Ending.last, courseData_rounds hw (by rw [← h2]; exact hne)]
      rfl
    have hsize : ∀ b ∈ recordedData reads, b.length ≤ 1024 := by
      intro b hb
      obtain ⟨x, hx, rfl⟩ := List.mem_map.1 hb
      exact (hr.delivered x (List.mem_filter.1 hx).1).1
    have hreads : ∀ r, .read r ∈ session D clock grow defs fails reads (Live.start s) [] → r.data.length ≤ 1024 := by
      intro r hr'
      obtain ⟨pre, post, g1, _, g3⟩ := session_reads D clock grow hg hmax fails reads (Live.start s) []
      have hm : r ∈ readsOf (session D clock grow defs fails reads (Live.start s) []) := List.mem_filterMap.2 ⟨_, hr', rfl⟩
      refine (hr.delivered r ?_).1
      rcases g3 with ⟨g3, _⟩ | ⟨y, post', _, g4, _, g3, _⟩
      · rw [g3] at hm; rw [g1]; simp [hm]
      · rw [g3] at hm; rw [g1, g4]; simp at hm ⊢; rcases hm with hm | hm <;> simp [hm]
    have ht := recorded_traceable _ hreads
      (fun p res hp => by have := session_sizes D clock grow hg hmax _ reads _ [] p res hp; omega)
    have hload := C58_loads _ ht
    rw [writeMsgs_text _ (fun m hm => ⟨(ht m hm).1, by have := (ht m hm).2.1; intro h0; rw [h0] at this; simp at this⟩),
      List.nil_append, ← recorded_text] at hload
    rw [h4] at hload
    have hview : ∀ e ∈ tookRounds fails 0 es, Viewable defs e := by
      intro e he
      obtain ⟨e', k1, k2, k3, k4, k5⟩ := tookRounds_mem _ _ _ e he
      obtain ⟨v1, v2⟩ := talk_viewable h1 e' k1
      exact ⟨by rw [k2, k3]; exact v1, fun a ha => by rw [k4]; exact v2 a (k5 a ha)⟩
    obtain ⟨evs, v1, v2, v3, fs, v4, v5⟩ := rounds_view hg hmax hview hfit h3
    have hp : (((talkMsgs (tookRounds fails 0 es) tail).zipIdx).map
        fun p => (⟨p.1.dir, UInt64.ofNat p.2, p.1.data⟩ : Msg)).map pairOf =
        (tookRounds fails 0 es).flatMap Round.moved ++ tail.map ((0, ·)) := pairOf_numbered _
    obtain ⟨o0, o1, o2⟩ := ofDir_talk (tookRounds fails 0 es) tail _ hp
    obtain ⟨shown, w1, w2, w3⟩ := C58_terminates_partial hload grow' hlen (by
      intro d rs t hd f hf
      by_cases e0 : d = 0
      · subst e0
        rw [o0, tookRounds_used, ← h2] at hd
        exact hr.safe rs t hd f hf
      · by_cases e1 : d = 1
        · subst e1
          rw [o1] at hd
          rw [(C58_frames_unique hd v5).1] at hf
          obtain ⟨g, hg', hgf⟩ := List.mem_map.1 hf
          cases hgf
          exact v4 _ hg'
        · rw [o2 d e0 e1] at hd
          rw [(frames_unfinished unfinished_nil hd).1] at hf
          cases hf) fuel (by simpa using hfuel)
    refine ⟨shown, w1, took_shown h1 fails 0 v1 (C58_viewing_unique w2 (v2 _ hp)) ?_⟩
    show ShownCmds s.mode shown
    rw [hs]
    exact w3

/-- `C87_trace` on a session whose second write fails. -/
example : ∃ es fin, Course devGeneral (fun _ => ⟨2024, 1, 2, 3, 4⟩) defaultReportDefs (Srv.init DevGeneral.zero) sampleReads es fin ∧
    sessionTrace devGeneral (fun _ => ⟨2024, 1, 2, 3, 4⟩) (fun _ n => n) defaultReportDefs (fun k => if k = 1 then some .noProgress else none)
        sampleReads (Srv.init DevGeneral.zero) =
      traceText ((courseData (fun k => if k = 1 then some .noProgress else none) 0 es fin.last).map fun p => ⟨p.1, 0, p.2⟩) := by
  obtain ⟨es, fin, h1, _, h2⟩ := C87_trace devGeneral (fun _ => ⟨2024, 1, 2, 3, 4⟩) (fun _ n => n) goodTable_default
    (fun k => if k = 1 then some .noProgress else none) sampleReads (Srv.init DevGeneral.zero)
  exact ⟨es, fin, h1, h2⟩

/-- Answers of one report each are never taken in part. -/
theorem whole_of_short {fails : Fails} {es : List Round} (h : ∀ e ∈ es, ∀ a ∈ e.sent, a.reports.length ≤ 1) (i : Nat) :
    WholeRounds fails i es := by
  have one : ∀ (as : List Answer) (i : Nat), (∀ a ∈ as, a.reports.length ≤ 1) → WholeAnswers fails i as := by
    intro as
    induction as with
    | nil => intro _ _; trivial
    | cons a as ih =>
      intro i ha
      refine ⟨?_, ih _ (fun a h => ha a (by simp [h]))⟩
      have hl := ha a (by simp)
      match hr : a.reports, hl with
      | [], _ => exact .inl rfl
      | [r], _ => by_cases hf : fails i = none <;> simp [taken, hf]
      | _ :: _ :: _, hl => simp at hl
  induction es generalizing i with
  | nil => trivial
  | cons e es ih => exact ⟨one _ _ (h e (by simp)), ih (fun e he => h e (by simp [he])) _⟩

/-- The device refuses the first of two answers and takes the second. -/
example :
    let r : Report := ⟨0x0C, 0x00, [0x55, 0x04, 0x00, 0x12, 0xFF, 0xFF, 0xEC]⟩
    let a : Answer := ⟨⟨0, none, .nil⟩, [0x55, 0x04, 0x00, 0x12, 0xFF, 0xFF, 0xEC], [r]⟩
    let es : List Round := [⟨[], .ok [], [], false, [a]⟩, ⟨[], .ok [], [], false, [a]⟩]
    let fails : Fails := fun i => if i = 0 then some .noProgress else none
    WholeRounds fails 0 es ∧ (tookRounds fails 0 es).map (fun e => e.sent.map (·.reports)) = [[], [[r]]] := by
  intro r a es fails
  exact ⟨whole_of_short (by simp [es, a]) 0, by decide +kernel⟩

/-- A table with reports of four bytes of data. -/
def smallReports : List ReportDef := [⟨1, 5, .accIn⟩, ⟨2, 12, .accOut⟩]

theorem small_good : GoodTable smallReports := by
  refine ⟨?_, ?_, ?_, ?_⟩ <;> decide

/-- C87 fails: the device takes the first report of an answer, but not the second, and then nothing more. The server answers
the next request too; the viewer shows nothing after the first. -/
theorem C87_fails_part :
    let reads : List ReadRes := [⟨[0x02, 0x00, 0x55, 0x02, 0x00, 0x11, 0xED], none⟩, ⟨[0x02, 0x00, 0x55, 0x02, 0x00, 0x11, 0xED], none⟩]
    let fails : Fails := fun i => if i = 0 then none else some .noProgress
    (serve devGeneral (fun _ => ⟨2024, 1, 2, 3, 4⟩) (fun _ n => n) smallReports reads (Srv.init DevGeneral.zero) >>=
        fun x => .ret x.2) =
      .ret [[0x55, 0x04, 0x00, 0x12, 0xFF, 0xFF, 0xEC], [0x55, 0x04, 0x00, 0x12, 0xFF, 0xFF, 0xEC]] ∧
    (dumpTrace (fun _ n => n) smallReports 10 (newReader (sessionTrace devGeneral (fun _ => ⟨2024, 1, 2, 3, 4⟩) (fun _ n => n)
        smallReports fails reads (Srv.init DevGeneral.zero)) none)).map
      (fun x => x >>= fun y => .ret (y.map fun shown => shown.map fun e => (e.dir, e.frame))) =
      .ok (.ret (some [(0, .ok [0x55, 0x02, 0x00, 0x11, 0xED])])) := by
  decide +kernel

end Props
