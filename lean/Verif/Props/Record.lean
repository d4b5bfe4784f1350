import Verif.Props.Unnoticed

/-! Properties of a session of the server on a traced device, and of its trace (C87). -/

namespace Props
open Go Spec Ipod Ipod.Hid Ipod.Trace

/-- Sessions on a device that takes every report, whose reads fail only between two frames or in a frame of which nothing more
follows, and with frames received that the packet loop survives. -/
structure Recordable (defs : List ReportDef) (reads : List ReadRes) : Prop where
  delivered : ∀ x ∈ reads, x.data.length ≤ 1024 ∧ x.err ≠ some .eof
  fails : FailsUnnoticed defs reads
  safe : ∀ rs tail, Frames defs (recordedData reads) rs tail → ∀ f, .ok f ∈ rs → SafeFrame f

/-- The packets sent have neither 256 nor more than 65535 bytes. -/
def PacketsFit (es : List Round) : Prop :=
  ∀ e ∈ es, ∀ a ∈ e.sent, ∀ p, (marshalCmd e.mode a.cmd).2 = .ok p → p.length ≤ 65535 ∧ p.length ≠ 256

/-- The messages of a session, in the order in which the data moves. -/
def talkMsgs (es : List Round) (tail : List Bytes) : List Msg :=
  (es.flatMap Round.moved ++ tail.map (((0 : Trace.Dir), ·))).map fun p => ⟨p.1, 0, p.2⟩

theorem carries_size {defs : List ReportDef} (hmax : ∀ d ∈ defs, d.maxPayload ≤ 1022) {frame : Bytes} {rs : List Report}
    (h : Carries defs frame rs) : ∀ r ∈ rs, (rawReportBytes r).length ≤ 1024 := by
  intro r hr
  rcases h with ⟨_, rfl⟩ | ⟨_, _, h1, _⟩
  · cases hr
  · obtain ⟨d, hd, hb⟩ := h1 r hr
    have e1 := hmax d hd
    have e2 := hb.2.2
    simp only [rawReportBytes, List.length_append, List.length_cons, List.length_nil]
    omega

theorem talk_carries {σ : Type} {D : Device σ} {clock : Clock} {defs : List ReportDef} {s s' : Srv σ} {es : List Round}
    (h : Talk D clock defs s es s') : ∀ e ∈ es, ∀ a ∈ e.sent, Carries defs a.frame a.reports := by
  induction h with
  | nil => simp
  | error _ _ ih =>
    intro e he
    rcases List.mem_cons.1 he with rfl | he
    · simp
    · exact ih e he
  | frame _ _ _ _ _ h6 _ ih =>
    intro e he
    rcases List.mem_cons.1 he with rfl | he
    · exact fun a ha => (h6 a ha).reports
    · exact ih e he

theorem session_ops {σ : Type} (D : Device σ) (clock : Clock) (grow : Growth) {defs : List ReportDef} (hg : GoodTable defs)
    (hmax : ∀ d ∈ defs, d.maxPayload ≤ 1022) {reads : List ReadRes} (hr : Recordable defs reads) (s : Srv σ) :
    ∃ es l' tail, Talk D clock defs s es l'.srv ∧ recordedData reads = es.flatMap (·.used) ++ tail ∧ Unfinished defs tail ∧
      recordedMsgs (session D clock grow defs (fun _ => none) reads (Live.start s) []) = talkMsgs es tail ∧
      observed D clock grow defs reads s = .ret (l', true) ∧ l'.written = es.flatMap (fun e => e.sent.map (·.frame)) ∧
      readsOf (session D clock grow defs (fun _ => none) reads (Live.start s) []) = reads ∧
      (∀ res, .read res ∈ session D clock grow defs (fun _ => none) reads (Live.start s) [] →
        res.data.length ≤ 1024 ∧ res.err ≠ some .eof) ∧
      (∀ p res, .write p res ∈ session D clock grow defs (fun _ => none) reads (Live.start s) [] → p.length ≤ 21844) := by
  let kept := reads.filter (fun x => decide (Recorded x))
  have hkept : ∀ x ∈ kept, Recorded x := fun x hx => by simpa using (List.mem_filter.1 hx).2
  have hdata : recordedData kept = recordedData reads := by
    rw [recordedData, recordedData, List.filter_eq_self.2 (fun x hx => by simpa using hkept x hx)]
  obtain ⟨es, l', tail, h1, h2, h3, h4, h5, h6, _, _⟩ := session_talk D clock grow hg _ kept rfl
    (fun x hx => hr.delivered x (List.mem_filter.1 hx).1)
    (fun pre x y rest h hy => absurd (hkept y (by rw [h]; simp)) hy) (by rw [hdata]; exact hr.safe) (Live.start s) rfl []
  have hrun := run_unnoticed D clock grow reads hr.delivered hr.fails (alike_start defs _ s)
  rw [h5] at hrun
  obtain ⟨l2, e1, e2, e3⟩ : ∃ l2, Live.run D clock grow defs reads (Live.start s) = .ret (l2, true) ∧ l2.srv = l'.srv ∧
      l2.written = l'.written := by
    cases ho : Live.run D clock grow defs reads (Live.start s) with
    | panic => rw [ho] at hrun; cases hrun
    | ret x =>
      rw [ho] at hrun
      simp only [seen, Out.ret.injEq, Prod.mk.injEq] at hrun
      exact ⟨x.1, by rw [← hrun.2.2], hrun.1, hrun.2.1⟩
  have h7 := session_all D clock grow hg hmax (fun _ => none) reads _ _ [] e1
  refine ⟨es, l2, tail, by rw [e2]; exact h1, by rw [← hdata]; exact h2, h3, ?_, e1, by rw [e3]; simpa [Live.start] using h6, h7, ?_, ?_⟩
  · rw [session_unnoticed D clock grow (fun _ => none) reads hr.delivered hr.fails (alike_start defs _ s)]
    exact h4
  · intro res hres
    refine hr.delivered res ?_
    rw [← h7]
    exact List.mem_filterMap.2 ⟨_, hres, rfl⟩
  · intro p res hp
    have := session_sizes D clock grow hg hmax _ reads _ [] p res hp
    omega

/-- C87, the trace: it contains, in order, the reports of every frame received, each followed by the reports of the answers to
it, then those of a frame not yet complete. The frames written are those of the answers. -/
theorem C87_trace_partial {σ : Type} (D : Device σ) (clock : Clock) (grow : Growth) {defs : List ReportDef} (hg : GoodTable defs)
    (hmax : ∀ d ∈ defs, d.maxPayload ≤ 1022) {reads : List ReadRes} (hr : Recordable defs reads) (s : Srv σ) :
    ∃ es s' tail, Talk D clock defs s es s' ∧ recordedData reads = es.flatMap (·.used) ++ tail ∧ Unfinished defs tail ∧
      serve D clock grow defs reads s = .ret (s', es.flatMap (fun e => e.sent.map (·.frame))) ∧
      sessionTrace D clock grow defs (fun _ => none) reads s = traceText (talkMsgs es tail) := by
  obtain ⟨es, l', tail, h1, h2, h3, h4, h5, h6, _, _⟩ := session_ops D clock grow hg hmax hr s
  refine ⟨es, l'.srv, tail, h1, h2, h3, ?_, ?_⟩
  · rw [← C74_online D clock grow defs (fun d hd => by have := hg.carries d hd; omega), h5, ← h6]
    rfl
  · rw [sessionTrace, recorded_text, h4]

theorem ofDir_talk (es : List Round) (tail : List Bytes) (ms : List Msg)
    (h : ms.map pairOf = es.flatMap Round.moved ++ tail.map ((0, ·))) :
    ofDir 0 ms = es.flatMap (·.used) ++ tail ∧
    ofDir 1 ms = (es.flatMap fun e => e.sent.flatMap fun a => a.reports.map bytesOf) ∧
    ∀ d, d ≠ 0 → d ≠ 1 → ofDir d ms = [] := by
  have key : ∀ d, ofDir d ms = ((es.flatMap Round.moved ++ tail.map (((0 : Trace.Dir), ·))).filter (·.1 = d)).map (·.2) := by
    intro d
    rw [← h, ofDir]
    clear h
    induction ms with
    | nil => rfl
    | cons m ms ih =>
      by_cases hd : m.dir = d
      · rw [List.filter_cons_of_pos (by simpa using hd), List.map_cons, List.map_cons,
          List.filter_cons_of_pos (by rw [decide_eq_true_eq]; exact hd), List.map_cons, ih]
        rfl
      · rw [List.filter_cons_of_neg (by simpa using hd), List.map_cons, List.filter_cons_of_neg (by rw [decide_eq_true_eq]; exact hd), ih]
  have hs : ∀ (d d' : Trace.Dir) (bs : List Bytes), ((bs.map ((d, ·))).filter (·.1 = d')).map (·.2) = if d = d' then bs else [] := by
    intro d d' bs
    induction bs with
    | nil => simp
    | cons b bs ih =>
      by_cases hd : d = d'
      · rw [if_pos hd] at ih ⊢
        rw [List.map_cons, List.filter_cons_of_pos (by simpa using hd), List.map_cons, ih]
      · rw [if_neg hd] at ih ⊢
        rw [List.map_cons, List.filter_cons_of_neg (by simpa using hd), ih]
  have hsent : ∀ (d' : Trace.Dir) (as : List Answer),
      ((as.flatMap fun a => a.reports.map fun r => ((1 : Trace.Dir), r.id :: r.linkControl :: r.data)).filter (·.1 = d')).map (·.2) =
        if 1 = d' then as.flatMap (fun a => a.reports.map bytesOf) else [] := by
    intro d' as
    induction as with
    | nil => simp
    | cons a as ih =>
      rw [List.flatMap_cons, List.filter_append, List.map_append, ih]
      have := hs 1 d' (a.reports.map bytesOf)
      rw [List.map_map] at this
      rw [show (a.reports.map fun r => ((1 : Trace.Dir), r.id :: r.linkControl :: r.data)) =
        a.reports.map ((fun x => ((1 : Trace.Dir), x)) ∘ bytesOf) from rfl, this]
      split <;> simp
  have hall : ∀ d, ((es.flatMap Round.moved).filter (·.1 = d)).map (·.2) =
      if 0 = d then es.flatMap (·.used) else if 1 = d then
        es.flatMap (fun e => e.sent.flatMap fun a => a.reports.map bytesOf) else [] := by
    intro d
    clear key h
    induction es with
    | nil => simp
    | cons e es ih =>
      rw [List.flatMap_cons, List.filter_append, List.map_append, ih, Round.moved, List.filter_append, List.map_append, hs, hsent]
      by_cases h0 : (0 : Trace.Dir) = d
      · subst h0
        simp
      · rw [if_neg h0, if_neg h0, if_neg h0]
        split <;> simp
  refine ⟨?_, ?_, ?_⟩
  · rw [key, List.filter_append, List.map_append, hall, hs, if_pos rfl, if_pos rfl]
  · rw [key, List.filter_append, List.map_append, hall, hs, if_neg (by decide), if_pos rfl, if_neg (by decide), List.append_nil]
  · intro d h0 h1
    rw [key, List.filter_append, List.map_append, hall, hs, if_neg (Ne.symm h0), if_neg (Ne.symm h1), if_neg (Ne.symm h0)]
    rfl

theorem pairOf_numbered (ps : List (Trace.Dir × Bytes)) :
    (((ps.map fun p => (⟨p.1, 0, p.2⟩ : Msg)).zipIdx).map
      fun p => (⟨p.1.dir, UInt64.ofNat p.2, p.1.data⟩ : Msg)).map pairOf = ps := by
  suffices ∀ i, (((ps.map fun p => (⟨p.1, 0, p.2⟩ : Msg)).zipIdx i).map
      fun p => (⟨p.1.dir, UInt64.ofNat p.2, p.1.data⟩ : Msg)).map pairOf = ps from this 0
  induction ps with
  | nil => simp
  | cons p ps ih => intro i; simp only [List.map_cons, List.zipIdx_cons, ih]; rfl

/-- C87, the viewer: on the trace of such a session it does not panic, ends, and shows of every round the frame received with
the commands the server took from it, then the answers; nothing else. -/
theorem C87_view_partial {σ : Type} (D : Device σ) (clock : Clock) (grow : Growth) {defs : List ReportDef} (hg : GoodTable defs)
    (hmax : ∀ d ∈ defs, d.maxPayload ≤ 1022) {reads : List ReadRes} (hr : Recordable defs reads) (s : Srv σ) (hs : s.mode = false) :
    ∃ es s' tail, Talk D clock defs s es s' ∧ recordedData reads = es.flatMap (·.used) ++ tail ∧ Unfinished defs tail ∧
      serve D clock grow defs reads s = .ret (s', es.flatMap (fun e => e.sent.map (·.frame))) ∧
      (PacketsFit es → ∀ (grow' : Growth) (fuel : Nat), (talkMsgs es tail).length < fuel → ∃ shown,
        dumpTrace grow' defs fuel (newReader (sessionTrace D clock grow defs (fun _ => none) reads s) none) = .ok (.ret (some shown)) ∧
        ShownTalk es shown) := by
  have hlen : ∀ d ∈ defs, 1 ≤ d.len := fun d hd => by have := hg.carries d hd; omega
  obtain ⟨es, l', tail, h1, h2, h3, h4, h5, h6, _, h8, h9⟩ := session_ops D clock grow hg hmax hr s
  refine ⟨es, l'.srv, tail, h1, h2, h3, ?_, ?_⟩
  · rw [← C74_online D clock grow defs hlen, h5, ← h6]
    rfl
  · intro hfit grow' fuel hfuel
    have ht := recorded_traceable _ (fun r h => (h8 r h).1) h9
    have hload := C58_loads _ ht
    rw [writeMsgs_text _ (fun m hm => ⟨(ht m hm).1, by have := (ht m hm).2.1; intro h0; rw [h0] at this; simp at this⟩),
      List.nil_append, ← recorded_text] at hload
    rw [h4] at hload
    obtain ⟨evs, v1, v2, v3, fs, v4, v5⟩ := talk_view hg hmax h1 hfit h3
    have hp : (((talkMsgs es tail).zipIdx).map fun p => (⟨p.1.dir, UInt64.ofNat p.2, p.1.data⟩ : Msg)).map pairOf =
        es.flatMap Round.moved ++ tail.map ((0, ·)) := pairOf_numbered _
    obtain ⟨o0, o1, o2⟩ := ofDir_talk es tail _ hp
    obtain ⟨shown, w1, w2, w3⟩ := C58_terminates_partial hload grow' hlen (by
      intro d rs t hd f hf
      by_cases e0 : d = 0
      · subst e0
        rw [o0, ← h2] at hd
        exact hr.safe rs t hd f hf
      · by_cases e1 : d = 1
        · subst e1
          rw [o1] at hd
          rw [(C58_frames_unique hd v5).1] at hf
          obtain ⟨g, hg', hgf⟩ := List.mem_map.1 hf
          cases hgf
          exact v4 _ hg'
        · rw [o2 d e0 e1] at hd
          rw [(frames_unfinished unfinished_nil hd).1] at hf
          cases hf) fuel (by simpa using hfuel)
    refine ⟨shown, w1, talk_shown h1 v1 (C58_viewing_unique w2 (v2 _ hp)) ?_⟩
    rw [hs]
    exact w3

/-- What a replay reads from the trace of a session: the reads the session got to, those that were recorded, then the end of the
file. -/
theorem session_replayed {σ : Type} (D : Device σ) (clock : Clock) (grow : Growth) {defs : List ReportDef} (hg : GoodTable defs)
    (hmax : ∀ d ∈ defs, d.maxPayload ≤ 1022) (fails : Fails) {reads : List ReadRes} (hl : ∀ x ∈ reads, x.data.length ≤ 1024)
    (s : Srv σ) :
    ∃ pre post, reads = pre ++ post ∧ (∀ x ∈ pre, x.err ≠ some .eof) ∧
      (observed D clock grow defs reads s >>= fun x => .ret (x.1.srv, x.1.written)) =
        (observed D clock grow defs pre s >>= fun x => .ret (x.1.srv, x.1.written)) ∧
      (post = [] ∨ observed D clock grow defs reads s = .panic ∨ ∃ l, observed D clock grow defs reads s = .ret (l, false)) ∧
      ∀ k, ∃ i, k ≤ i ∧
        dirReads dirIn 1024 ((recordedData reads).length + k) (newReader (sessionTrace D clock grow defs fails reads s) none) =
          pre.filter (fun x => decide (Recorded x)) ++ List.replicate i ⟨[], some .eof⟩ := by
  obtain ⟨pre, post, h1, h2, h3⟩ := session_reads D clock grow hg hmax fails reads (Live.start s) []
  have hrec : (readsOf (session D clock grow defs fails reads (Live.start s) [])).filter (fun x => decide (Recorded x)) =
      pre.filter (fun x => decide (Recorded x)) := by
    rcases h3 with ⟨h3, _⟩ | ⟨y, _, _, _, hy, h3, _⟩
    · rw [h3]
    · rw [h3, List.filter_append, List.filter_cons_of_neg (by simp [Recorded, hy]), List.filter_nil, List.append_nil]
  have hmem : ∀ x ∈ readsOf (session D clock grow defs fails reads (Live.start s) []), x ∈ reads := by
    rcases h3 with ⟨h3, _⟩ | ⟨y, post', _, hp, _, h3, _⟩
    · rw [h3, h1]; intro x hx; simp [hx]
    · rw [h3, h1, hp]; intro x hx; simp at hx ⊢; rcases hx with hx | hx <;> simp [hx]
  refine ⟨pre, post, h1, h2, ?_, ?_, fun k => ?_⟩
  · rcases h3 with ⟨_, h3, _⟩ | ⟨_, _, _, _, _, _, h4, h5⟩
    · rw [observed, observed, h3]
    · rw [observed, observed, h4, h5]; rfl
  · rcases h3 with ⟨h4, _, _⟩ | ⟨_, _, l', _, _, _, _, h5⟩
    · cases ho : Live.run D clock grow defs reads (Live.start s) with
      | panic => exact .inr (.inl ho)
      | ret x =>
        obtain ⟨l, b⟩ := x
        cases b with
        | false => exact .inr (.inr ⟨l, ho⟩)
        | true =>
          left
          have := session_all D clock grow hg hmax fails reads _ _ [] ho
          rw [h4] at this
          rw [this] at h1
          simpa using h1
    · exact .inr (.inr ⟨l', h5⟩)
  · obtain ⟨i, hi, hj⟩ : ∃ i, k ≤ i ∧ (recordedData reads).length + k = (pre.filter (fun x => decide (Recorded x))).length + i := by
      rw [recordedData, List.length_map, h1, List.filter_append, List.length_append, Nat.add_assoc]
      exact ⟨_, by omega, rfl⟩
    have h := C44_replayed_reads (session D clock grow defs fails reads (Live.start s) [])
      (fun r hr => hl r (hmem r (List.mem_filterMap.2 ⟨_, hr, rfl⟩)))
      (fun p res hp => by have := session_sizes D clock grow hg hmax fails reads _ [] p res hp; omega) i
    simp only [hrec] at h
    exact ⟨i, hi, by rw [hj]; exact h⟩

/-- C87, the replay: a server in the state in which a session began, fed with the trace of that session, ends in the same state and
writes the same frames, or panics like the session. This holds whatever the device does with the reports written and however the
session ends. Missing: sessions with a read that fails amid a frame that is then continued. -/
theorem C87_replay_partial {σ : Type} (D : Device σ) (clock : Clock) (grow : Growth) {defs : List ReportDef} (hg : GoodTable defs)
    (hmax : ∀ d ∈ defs, d.maxPayload ≤ 1022) (fails : Fails) {reads : List ReadRes} (hl : ∀ x ∈ reads, x.data.length ≤ 1024)
    (hf : FailsUnnoticed defs reads) (s : Srv σ) (k : Nat) :
    serve D clock grow defs (dirReads dirIn 1024 ((recordedData reads).length + k)
      (newReader (sessionTrace D clock grow defs fails reads s) none)) s = serve D clock grow defs reads s := by
  have hd : ∀ d ∈ defs, 1 ≤ d.len := fun d h => by have := hg.carries d h; omega
  obtain ⟨pre, post, h1, h2, h3, _, h4⟩ := session_replayed D clock grow hg hmax fails hl s
  obtain ⟨i, _, h5⟩ := h4 k
  rw [h5, serve_ends D clock grow hd, ← C74_online D clock grow defs hd reads, h3, C74_online D clock grow defs hd pre,
    serve_seen D clock grow hd, serve_seen D clock grow hd, observed, observed,
    run_unnoticed D clock grow pre (fun x hx => ⟨hl x (by rw [h1]; simp [hx]), h2 x hx⟩)
      (unnoticed_prefix (b := post) (by rw [← h1]; exact hf)) (alike_start defs _ s)]

/-- C87, `send`: the trace of a session, sent to a device, gives it the reads of the session that were recorded, up to the first of
less than three bytes. (If the server has not stopped before the last of the reads; no other condition.) -/
theorem C87_send {σ : Type} (D : Device σ) (clock : Clock) (grow : Growth) {defs : List ReportDef} (hg : GoodTable defs)
    (hmax : ∀ d ∈ defs, d.maxPayload ≤ 1022) (fails : Fails) {reads : List ReadRes} (hl : ∀ x ∈ reads, x.data.length ≤ 1024)
    (s : Srv σ) {l : Live σ} (hrun : observed D clock grow defs reads s = .ret (l, true)) (k : Nat) :
    sendLoop (replayReads (sessionTrace D clock grow defs fails reads s) none ((recordedData reads).length + k)) =
      (recordedData reads).takeWhile (fun b => decide (3 ≤ b.length)) := by
  have h7 := session_all D clock grow hg hmax fails reads _ _ [] hrun
  have h := C76_recorded_session (session D clock grow defs fails reads (Live.start s) [])
    (fun r hr => hl r (by rw [← h7]; exact List.mem_filterMap.2 ⟨_, hr, rfl⟩))
    (fun p res hp => by have := session_sizes D clock grow hg hmax fails reads _ [] p res hp; omega) k
  simp only [h7] at h
  rw [recordedData, List.length_map, List.takeWhile_map]
  exact h

/-- A packet (RequestTransportMaxPayloadSize) in one report. -/
theorem sample_one : OneCall defaultReportDefs [[0x01, 0x00, 0x55, 0x02, 0x00, 0x11, 0xED]] (.ok [0x55, 0x02, 0x00, 0x11, 0xED]) := by
  have h1 : Accepted defaultReportDefs ⟨0x01, 0x00, [0x55, 0x02, 0x00, 0x11, 0xED]⟩ [0x55, 0x02, 0x00, 0x11, 0xED] :=
    accepted_iff.2 ⟨_, rfl, by decide, rfl⟩
  refine .frame (rs := [⟨0x01, 0x00, [0x55, 0x02, 0x00, 0x11, 0xED]⟩]) rfl
    ⟨⟨[], _, rfl, by decide, by simp⟩, ?_, [], _, rfl, ?_, by simp, .inl rfl⟩
  · intro r hr
    simp only [List.mem_cons, List.not_mem_nil, or_false] at hr
    subst hr
    exact ⟨_, h1⟩
  · exact .cons (b := [0x55, 0x02, 0x00, 0x11, 0xED]) (bs := []) (by decide) h1 .nil

theorem sample_survived : SafeFrame [0x55, 0x02, 0x00, 0x11, 0xED] := by
  intro spare
  refine ⟨[[0x00, 0x11]], .packet (j := []) (w := [0x55, 0x02, 0x00, 0x11, 0xED]) (rest := []) (by decide)
    ⟨[2], 0xED, .inl ⟨2, by decide, rfl, rfl⟩, rfl, by decide⟩ (.done (by decide)), ?_⟩
  rintro p hp m ⟨trx, _, ⟨b, h, _⟩ | ⟨n, r, h, _⟩⟩ <;> (simp at hp; subst hp; simp at h)

/-- The packet in two reports. -/
theorem sample_halves : OneCall defaultReportDefs [[0x01, 0x02, 0x55, 0x02, 0x00], [0x01, 0x01, 0x11, 0xED]]
    (.ok [0x55, 0x02, 0x00, 0x11, 0xED]) := by
  have h1 : Accepted defaultReportDefs ⟨0x01, 0x02, [0x55, 0x02, 0x00]⟩ [0x55, 0x02, 0x00] :=
    accepted_iff.2 ⟨_, rfl, by decide, rfl⟩
  have h2 : Accepted defaultReportDefs ⟨0x01, 0x01, [0x11, 0xED]⟩ [0x11, 0xED] := accepted_iff.2 ⟨_, rfl, by decide, rfl⟩
  refine .frame (rs := [⟨0x01, 0x02, [0x55, 0x02, 0x00]⟩, ⟨0x01, 0x01, [0x11, 0xED]⟩]) rfl
    ⟨⟨[⟨0x01, 0x02, [0x55, 0x02, 0x00]⟩], _, rfl, by decide, ?_⟩, ?_, [], _, rfl, ?_, ?_, .inl rfl⟩
  · intro r hr
    simp only [List.mem_cons, List.not_mem_nil, or_false] at hr
    subst hr
    decide
  · intro r hr
    simp only [List.mem_cons, List.not_mem_nil, or_false] at hr
    rcases hr with rfl | rfl
    · exact ⟨_, h1⟩
    · exact ⟨_, h2⟩
  · exact .cons (b := [0x55, 0x02, 0x00]) (bs := [0x11, 0xED]) (by decide) h1
      (.cons (b := [0x11, 0xED]) (bs := []) (by decide) h2 .nil)
  · intro r hr
    simp only [List.tail_cons, List.mem_cons, List.not_mem_nil, or_false] at hr
    subst hr
    decide

/-- A session: a request in two reports, an empty read, a failing read, another request. -/
def sampleReads : List ReadRes :=
  [⟨[0x01, 0x02, 0x55, 0x02, 0x00], none⟩, ⟨[0x01, 0x01, 0x11, 0xED], none⟩, ⟨[], none⟩, ⟨[0x07], some .noProgress⟩,
   ⟨[0x01, 0x00, 0x55, 0x02, 0x00, 0x11, 0xED], none⟩]

theorem sample_recordable : Recordable defaultReportDefs sampleReads := by
  refine ⟨by simp [sampleReads], ?_, ?_⟩
  · intro pre x y rest h hy
    simp only [sampleReads] at h
    match pre, h with
    | [], h => cases h; exact absurd ⟨rfl, by decide⟩ hy
    | [_], h => cases h; left; intro id lc d ds h; cases h; intro _; decide
    | [_, _], h => cases h; left; intro id lc d ds h; cases h
    | [_, _, _], h => cases h; exact absurd ⟨rfl, by decide⟩ hy
    | [_, _, _, _], h => cases h
    | _ :: _ :: _ :: _ :: _ :: pre, h =>
      simp only [List.cons_append, List.cons.injEq, List.nil_eq, List.append_eq_nil_iff, reduceCtorEq, and_false] at h
  · intro rs tail h f hf
    have hk : Frames defaultReportDefs (recordedData sampleReads) [.ok [0x55, 0x02, 0x00, 0x11, 0xED], .ok [0x55, 0x02, 0x00, 0x11, 0xED]] [] :=
      .cons (rest := [[0x01, 0x00, 0x55, 0x02, 0x00, 0x11, 0xED]]) sample_halves
        (.cons (rest := []) sample_one (.tail unfinished_nil))
    rw [(C58_frames_unique h hk).1] at hf
    simp only [List.mem_cons, List.not_mem_nil, or_false, Except.ok.injEq, or_self] at hf
    subst hf
    exact sample_survived

/-- In that session both requests are answered; it meets the hypotheses of the other theorems too. -/
example : GoodTable defaultReportDefs ∧ (∀ d ∈ defaultReportDefs, d.maxPayload ≤ 1022) ∧
    Recordable defaultReportDefs sampleReads ∧ (Srv.init DevGeneral.zero).mode = false ∧
    ∃ s', serve devGeneral (fun _ => ⟨2024, 1, 2, 3, 4⟩) (fun _ n => n) defaultReportDefs sampleReads (Srv.init DevGeneral.zero) =
      .ret (s', [[0x55, 0x04, 0x00, 0x12, 0xFF, 0xFF, 0xEC],
        [0x55, 0x04, 0x00, 0x12, 0xFF, 0xFF, 0xEC]]) := by
  refine ⟨goodTable_default, by decide, sample_recordable, rfl, ?_⟩
  have h : (serve devGeneral (fun _ => ⟨2024, 1, 2, 3, 4⟩) (fun _ n => n) defaultReportDefs sampleReads (Srv.init DevGeneral.zero) >>=
      fun x => .ret x.2) = .ret [[0x55, 0x04, 0x00, 0x12, 0xFF, 0xFF, 0xEC],
        [0x55, 0x04, 0x00, 0x12, 0xFF, 0xFF, 0xEC]] := by decide +kernel
  revert h
  cases serve devGeneral (fun _ => ⟨2024, 1, 2, 3, 4⟩) (fun _ n => n) defaultReportDefs sampleReads (Srv.init DevGeneral.zero) with
  | panic => intro h; cases h
  | ret x => intro h; simp only [Out.bind_ret, Out.ret.injEq] at h; exact ⟨x.1, by rw [← h]⟩

/-- `C87_replay_partial` and `C87_send` apply to a session with a frame never finished, on a device that takes no answer. -/
example (k : Nat) :
    let fails : Fails := fun _ => some .noProgress
    let reads := readsOf sampleUnnoticed
    let D := devGeneral
    let clock : Clock := fun _ => ⟨2024, 1, 2, 3, 4⟩
    let grow : Growth := fun _ n => n
    let s := Srv.init DevGeneral.zero
    serve D clock grow defaultReportDefs (dirReads dirIn 1024 ((recordedData reads).length + k)
      (newReader (sessionTrace D clock grow defaultReportDefs fails reads s) none)) s = serve D clock grow defaultReportDefs reads s ∧
    (serve D clock grow defaultReportDefs reads s >>= fun x => .ret x.2) = .ret [[0x55, 0x04, 0x00, 0x12, 0xFF, 0xFF, 0xEC]] ∧
    (observed D clock grow defaultReportDefs reads s >>= fun x => .ret x.2) = .ret true :=
  ⟨C87_replay_partial _ _ _ goodTable_default (by decide) _ (by decide) sample_unnoticed.1 _ _, by decide +kernel, by decide +kernel⟩

/-- The viewer on a trace of one incoming frame (or of an error). -/
theorem view_single {defs : List ReportDef} (hd : ∀ d ∈ defs, 1 ≤ d.len) {bs : List Bytes} {x : Except Err Bytes} (hc : OneCall defs bs x)
    (hs : ∀ f, x = .ok f → SafeFrame f) (hb : ∀ b ∈ bs, b ≠ [] ∧ b.length ≤ 1024) (grow : Growth) (fuel : Nat) (hf : bs.length < fuel) :
    ∃ shown, dumpTrace grow defs fuel (newReader (traceText (bs.map fun b => ⟨0, 0, b⟩)) none) = .ok (.ret (some shown)) ∧
      shown.map (fun e => (e.dir, e.frame)) = [(0, x)] := by
  have ht : ∀ m ∈ bs.map (fun b => (⟨0, 0, b⟩ : Msg)), Traceable m := by
    intro m hm
    obtain ⟨b, h1, rfl⟩ := List.mem_map.1 hm
    exact ⟨.inl rfl, List.length_pos_iff.2 (hb b h1).1, by have := (hb b h1).2; simp only; omega⟩
  have hload := C58_loads _ ht
  rw [writeMsgs_text _ (fun m hm => ⟨(ht m hm).1, by have := (ht m hm).2.1; intro h0; rw [h0] at this; simp at this⟩),
    List.nil_append] at hload
  have hp := pairOf_numbered (bs.map ((0, ·)))
  rw [show (bs.map ((0, ·))).map (fun p => (⟨p.1, 0, p.2⟩ : Msg)) = bs.map (fun b => ⟨0, 0, b⟩) by rw [List.map_map]; rfl] at hp
  have ho := ofDir_talk [⟨bs, x, [], false, []⟩] [] _ (hp.trans (by simp [Round.moved]))
  simp only [List.flatMap_cons, List.flatMap_nil, List.append_nil] at ho
  have hfr : Frames defs bs [x] [] := by
    have := Frames.cons hc (Frames.tail unfinished_nil)
    rwa [List.append_nil] at this
  obtain ⟨shown, w1, w2, _⟩ := C58_terminates_partial hload grow hd (by
    intro d rs t h g hg
    by_cases e0 : d = 0
    · subst e0
      rw [show ofDir 0 _ = _ from ho.1] at h
      rw [(C58_frames_unique h hfr).1] at hg
      simp only [List.mem_cons, List.not_mem_nil, or_false] at hg
      exact hs _ hg.symm
    · have : ofDir d (List.map (fun p : Msg × Nat => (⟨p.1.dir, UInt64.ofNat p.2, p.1.data⟩ : Msg))
          (bs.map fun b => (⟨0, 0, b⟩ : Msg)).zipIdx) = [] := by
        by_cases e1 : d = 1
        · subst e1; exact ho.2.1
        · exact ho.2.2 d e0 e1
      rw [this] at h
      rw [(frames_unfinished unfinished_nil h).1] at hg
      cases hg) fuel (by simpa using hf)
  refine ⟨shown, w1, C58_viewing_unique w2 ?_⟩
  have := viewing_call (ms2 := []) (evs := []) hc hp .done
  rwa [List.append_nil] at this

/-- C87 fails: a request in two reports with a read in between that gives nothing. The server never gets that frame and remains as
it was; the viewer shows the frame. -/
theorem C87_fails (grow : Growth) (fuel : Nat) (hf : 2 < fuel) :
    ∃ reads : List ReadRes, (∀ x ∈ reads, x.data.length ≤ 1024 ∧ x.err = none) ∧
      (∃ l, observed devGeneral (fun _ => ⟨2024, 1, 2, 3, 4⟩) (fun _ n => n) defaultReportDefs reads (Srv.init DevGeneral.zero) =
        .ret (l, true) ∧ l.written = []) ∧
      ∃ shown, dumpTrace grow defaultReportDefs fuel (newReader (sessionTrace devGeneral (fun _ => ⟨2024, 1, 2, 3, 4⟩) (fun _ n => n)
          defaultReportDefs (fun _ => none) reads (Srv.init DevGeneral.zero)) none) = .ok (.ret (some shown)) ∧
        shown.map (fun e => (e.dir, e.frame)) = [(0, .ok [0x55, 0x02, 0x00, 0x11, 0xED])] := by
  refine ⟨[⟨[0x01, 0x02, 0x55, 0x02, 0x00], none⟩, ⟨[], none⟩, ⟨[0x01, 0x01, 0x11, 0xED], none⟩], by simp, ?_, ?_⟩
  · have h : (observed devGeneral (fun _ => ⟨2024, 1, 2, 3, 4⟩) (fun _ n => n) defaultReportDefs
        [⟨[0x01, 0x02, 0x55, 0x02, 0x00], none⟩, ⟨[], none⟩, ⟨[0x01, 0x01, 0x11, 0xED], none⟩] (Srv.init DevGeneral.zero) >>=
        fun x => .ret (x.1.written, x.2)) = .ret ([], true) := by decide +kernel
    revert h
    cases observed devGeneral (fun _ => ⟨2024, 1, 2, 3, 4⟩) (fun _ n => n) defaultReportDefs
        [⟨[0x01, 0x02, 0x55, 0x02, 0x00], none⟩, ⟨[], none⟩, ⟨[0x01, 0x01, 0x11, 0xED], none⟩] (Srv.init DevGeneral.zero) with
    | panic => intro h; cases h
    | ret x =>
      intro h
      obtain ⟨l, b⟩ := x
      simp only [Out.bind_ret, Out.ret.injEq, Prod.mk.injEq] at h
      exact ⟨l, by rw [h.2], h.1⟩
  · rw [sessionTrace, recorded_text]
    have e : recordedMsgs (session devGeneral (fun _ => ⟨2024, 1, 2, 3, 4⟩) (fun _ n => n) defaultReportDefs (fun _ => none)
        [⟨[0x01, 0x02, 0x55, 0x02, 0x00], none⟩, ⟨[], none⟩, ⟨[0x01, 0x01, 0x11, 0xED], none⟩] (Live.start (Srv.init DevGeneral.zero)) []) =
        [[0x01, 0x02, 0x55, 0x02, 0x00], [0x01, 0x01, 0x11, 0xED]].map fun b => ⟨0, 0, b⟩ := by decide +kernel
    rw [e]
    exact view_single (by decide) sample_halves (by rintro _ ⟨⟩; exact sample_survived) (by decide) grow fuel (by simpa using hf)

/-- `C87_trace_partial`, `C87_view_partial` and `C87_send` on the sessions above. -/
example : (∃ es s' tail, Talk devGeneral (fun _ => ⟨2024, 1, 2, 3, 4⟩) defaultReportDefs (Srv.init DevGeneral.zero) es s' ∧
      recordedData sampleReads = es.flatMap (·.used) ++ tail) ∧
    (∃ es tail, PacketsFit es → ∃ shown, dumpTrace (fun _ n => n) defaultReportDefs ((talkMsgs es tail).length + 1)
      (newReader (sessionTrace devGeneral (fun _ => ⟨2024, 1, 2, 3, 4⟩) (fun _ n => n) defaultReportDefs (fun _ => none) sampleReads
        (Srv.init DevGeneral.zero)) none) = .ok (.ret (some shown)) ∧ ShownTalk es shown) := by
  obtain ⟨es, s', tail, h1, h2, _⟩ := C87_trace_partial devGeneral (fun _ => ⟨2024, 1, 2, 3, 4⟩) (fun _ n => n) goodTable_default
    (by decide) sample_recordable (Srv.init DevGeneral.zero)
  obtain ⟨es', _, tail', _, _, _, _, h3⟩ := C87_view_partial devGeneral (fun _ => ⟨2024, 1, 2, 3, 4⟩) (fun _ n => n) goodTable_default
    (by decide) sample_recordable (Srv.init DevGeneral.zero) rfl
  exact ⟨⟨es, s', tail, h1, h2⟩, es', tail', fun hp => h3 hp _ _ (Nat.lt_succ_self _)⟩

example (fails : Fails) (k : Nat) {l : Live DevGeneral}
    (h : observed devGeneral (fun _ => ⟨2024, 1, 2, 3, 4⟩) (fun _ n => n) defaultReportDefs sampleReads (Srv.init DevGeneral.zero) =
      .ret (l, true)) :
    sendLoop (replayReads (sessionTrace devGeneral (fun _ => ⟨2024, 1, 2, 3, 4⟩) (fun _ n => n) defaultReportDefs fails sampleReads
        (Srv.init DevGeneral.zero)) none (3 + k)) =
      [[0x01, 0x02, 0x55, 0x02, 0x00], [0x01, 0x01, 0x11, 0xED], [0x01, 0x00, 0x55, 0x02, 0x00, 0x11, 0xED]] :=
  C87_send _ _ _ goodTable_default (by decide) fails (by simp [sampleReads]) _ h k

/-- C87 fails: the device does not take the answer. The server counts it as written, the viewer does not show it. -/
theorem C87_fails_write (grow : Growth) (fuel : Nat) (hf : 1 < fuel) :
    ∃ reads : List ReadRes, Recordable defaultReportDefs reads ∧
      (∃ l, observed devGeneral (fun _ => ⟨2024, 1, 2, 3, 4⟩) (fun _ n => n) defaultReportDefs reads (Srv.init DevGeneral.zero) =
        .ret (l, true) ∧
        l.written = [[0x55, 0x04, 0x00, 0x12, 0xFF, 0xFF, 0xEC]]) ∧
      ∃ shown, dumpTrace grow defaultReportDefs fuel (newReader (sessionTrace devGeneral (fun _ => ⟨2024, 1, 2, 3, 4⟩) (fun _ n => n)
          defaultReportDefs (fun _ => some .noProgress) reads (Srv.init DevGeneral.zero)) none) = .ok (.ret (some shown)) ∧
        shown.map (fun e => (e.dir, e.frame)) = [(0, .ok [0x55, 0x02, 0x00, 0x11, 0xED])] := by
  refine ⟨[⟨[0x01, 0x00, 0x55, 0x02, 0x00, 0x11, 0xED], none⟩], ⟨by simp, ?_, ?_⟩, ?_, ?_⟩
  · intro pre x y rest h
    match pre, h with
    | [], h => cases h
    | _ :: pre, h => simp only [List.cons_append, List.cons.injEq, List.nil_eq, List.append_eq_nil_iff, reduceCtorEq, and_false] at h
  · intro rs tail h f hfm
    have hk : Frames defaultReportDefs (recordedData [⟨[0x01, 0x00, 0x55, 0x02, 0x00, 0x11, 0xED], none⟩])
        [.ok [0x55, 0x02, 0x00, 0x11, 0xED]] [] :=
      .cons (rest := []) sample_one (.tail unfinished_nil)
    rw [(C58_frames_unique h hk).1] at hfm
    simp only [List.mem_cons, List.not_mem_nil, or_false, Except.ok.injEq] at hfm
    subst hfm
    exact sample_survived
  · have h : (observed devGeneral (fun _ => ⟨2024, 1, 2, 3, 4⟩) (fun _ n => n) defaultReportDefs
        [⟨[0x01, 0x00, 0x55, 0x02, 0x00, 0x11, 0xED], none⟩] (Srv.init DevGeneral.zero) >>=
        fun x => .ret (x.1.written, x.2)) =
        .ret ([[0x55, 0x04, 0x00, 0x12, 0xFF, 0xFF, 0xEC]], true) := by
      decide +kernel
    revert h
    cases observed devGeneral (fun _ => ⟨2024, 1, 2, 3, 4⟩) (fun _ n => n) defaultReportDefs
        [⟨[0x01, 0x00, 0x55, 0x02, 0x00, 0x11, 0xED], none⟩] (Srv.init DevGeneral.zero) with
    | panic => intro h; cases h
    | ret x =>
      intro h
      obtain ⟨l, b⟩ := x
      simp only [Out.bind_ret, Out.ret.injEq, Prod.mk.injEq] at h
      exact ⟨l, by rw [h.2], h.1⟩
  · rw [sessionTrace, recorded_text]
    have e : recordedMsgs (session devGeneral (fun _ => ⟨2024, 1, 2, 3, 4⟩) (fun _ n => n) defaultReportDefs (fun _ => some .noProgress)
        [⟨[0x01, 0x00, 0x55, 0x02, 0x00, 0x11, 0xED], none⟩] (Live.start (Srv.init DevGeneral.zero)) []) =
        [[0x01, 0x00, 0x55, 0x02, 0x00, 0x11, 0xED]].map fun b => ⟨0, 0, b⟩ := by decide +kernel
    rw [e]
    exact view_single (by decide) sample_one (by rintro _ ⟨⟩; exact sample_survived) (by decide) grow fuel (by simpa using hf)

end Props
