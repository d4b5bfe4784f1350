import Verif.Spec.Session
import Verif.Lemmas.Online
import Verif.Props.Server
import Verif.Props.Device

/-! # Property C78: a session over HID reports is a session over packets -/

namespace Props
open Go Spec Ipod Ipod.Hid

theorem stream_scan {ps : List Bytes} {w : Bytes} (h : Stream ps w) (spare : Bytes) : Scan spare w ps false := by
  induction h with
  | done j hj => exact .done hj
  | more j w rest p ps hj hw _ ih => exact .packet hj hw ih

/-- One frame with only whole packets in it. -/
theorem processFrame_iff {σ : Type} {D : Device σ} {clock : Clock} {s s' : Srv σ} {d spare : Bytes} {ps : List Bytes}
    {w : List Bytes} (hs : Scan spare d ps false) :
    processFrame D clock s ⟨d, spare⟩ = .ret (s', w) ↔
      ∃ m m' cmds c news rs, Decoded s.mode ps m cmds ∧ HandledEach D clock cmds { s.ctx with out := [] } c news ∧
        Encoded m news.flatten m' rs ∧ s' = ⟨m', { c with out := [] }⟩ ∧ w = rs.map frameOf := by
  have fwd : ∀ {s' w}, processFrame D clock s ⟨d, spare⟩ = .ret (s', w) →
      ∃ m m' cmds c news rs, Decoded s.mode ps m cmds ∧ HandledEach D clock cmds { s.ctx with out := [] } c news ∧
        Encoded m news.flatten m' rs ∧ s' = ⟨m', { c with out := [] }⟩ ∧ w = rs.map frameOf := by
    intro s' w h
    obtain ⟨ps', m1, cmds, c, news, rs, h1, h2, h3, h4, h5, h6⟩ := processFrame_ret h
    obtain ⟨rfl, _⟩ := scan_unique hs h1
    obtain ⟨md, ctx⟩ := s'
    simp only at h4 h6
    exact ⟨m1, md, cmds, c, news, rs, h2, h3, h4, by rw [h6], h5⟩
  refine ⟨fwd, ?_⟩
  rintro ⟨m, m', cmds, c, news, rs, h1, h2, h3, rfl, rfl⟩
  cases hp : processFrame D clock s ⟨d, spare⟩ with
  | panic =>
    rcases (processFrame_panic hs).1 hp with hb | ⟨ps1, p, ps2, m1, cmds1, e, g1, g2⟩
    · cases hb
    · exfalso
      subst e
      clear hs h2 h3 hp fwd
      generalize s.mode = md at h1 g1
      induction g1 generalizing cmds with
      | nil =>
        cases h1 with
        | cons a _ => rw [g2] at a; cases a
      | cons a _ ih =>
        cases h1 with
        | cons b h1 =>
          have e := a.symm.trans b
          cases e
          exact ih _ g2 h1
  | ret x =>
    obtain ⟨s1, w1⟩ := x
    obtain ⟨n, n', cmds', c', news', rs', g1, g2, g3, rfl, rfl⟩ := fwd hp
    obtain ⟨rfl, rfl⟩ := decoded_unique h1 g1
    obtain ⟨rfl, rfl⟩ := handledEach_unique h2 g2
    obtain ⟨rfl, rfl⟩ := encoded_unique h3 g3
    rfl

/-- Reports as they arrive, each `Write` as one `Read`. -/
def arriving (rs : List Report) : List ReadRes := rs.map fun r => ⟨rawReportBytes r, none⟩

/-- Packets `p.1` went out in one frame as the reports `p.2`. -/
def SentAs (defs : List ReportDef) (p : List Bytes × List Report) : Prop :=
  p.1 ≠ [] ∧ (∀ q ∈ p.1, Sendable q) ∧ Written defs (writePackets newPacketWriter p.1) p.2

theorem frame_ne_nil {ps : List Bytes} (h1 : ps ≠ []) (h2 : ∀ q ∈ ps, Sendable q) : writePackets newPacketWriter ps ≠ [] := by
  have hst := C02_written_is_stream ps h2
  intro hn
  rw [hn] at hst
  generalize hw : ([] : Bytes) = w at hst
  cases hst with
  | done => exact h1 rfl
  | more j w rest p ps' hj hw' _ =>
    obtain ⟨_, _, _, e, _⟩ := hw'
    rw [e] at hw
    simp at hw

theorem arriving_ok {defs : List ReportDef} (hg : GoodTable defs) (hmax : ∀ d ∈ defs, d.maxPayload ≤ 1022) {f : Bytes}
    (hf : f ≠ []) {rs : List Report} (hw : Written defs f rs) : (arriving rs).map rawReadReport = rs.map .ok := by
  rw [arriving, List.map_map]
  apply List.map_congr_left
  intro r hr
  obtain ⟨d, d1, _, _, d4⟩ := C31_fits_descriptor defs hg _ hf rs hw r hr
  have := hg.carries d d1
  have := hmax d d1
  have hm : d.maxPayload = d.len - 1 := rfl
  exact C35_raw_roundtrip r (by omega) (by omega)

theorem reports_ne_nil {defs : List ReportDef} (hg : GoodTable defs) {f : Bytes} (hf : f ≠ []) {rs : List Report}
    (hw : Written defs f rs) : 1 ≤ rs.length := by
  cases rs with
  | cons => simp
  | nil =>
    obtain ⟨_, _, _, h, _⟩ := C29_frame_roundtrip (fun _ _ => 0) defs hg f hf [] hw [] ⟨[], []⟩
    simp [readFrame, readFrameLoop] at h

theorem batch_conversation {σ : Type} {D : Device σ} {clock : Clock} {grow : Growth} {defs : List ReportDef} (hg : GoodTable defs)
    (hmax : ∀ d ∈ defs, d.maxPayload ≤ 1022) (frames : List (List Bytes × List Report)) (h : ∀ p ∈ frames, SentAs defs p) :
    ∀ (n : Nat) (_ : frames.length ≤ n) (buf : Slice) (s s' : Srv σ) (w : List Bytes),
    batch D clock grow defs n ((frames.flatMap fun p => arriving p.2).map rawReadReport) buf s = .ret (s', w) ↔
      ∃ rs, Conversation D clock s (frames.map (·.1)) s' rs ∧ w = rs.map frameOf := by
  have hd : ∀ d ∈ defs, 0 ≤ d.maxPayload := fun d hm => by have := hg.carries d hm; unfold ReportDef.maxPayload at this ⊢; omega
  induction frames with
  | nil =>
    intro n _ buf s s' w
    have e : batch D clock grow defs n [] buf s = .ret (s, []) := by
      unfold batch
      cases n with
      | zero => rfl
      | succ n =>
        rw [frameReads]
        simp only [readFrame, readFrameLoop, Out.bind_ret]
        obtain ⟨xs, hx⟩ := Ipod.frameReads_total (grow := grow) hd n [] buf.reset
        rw [hx]
        rfl
    simp only [List.flatMap_nil, List.map_nil, e, Out.ret.injEq, Prod.mk.injEq]
    constructor
    · rintro ⟨rfl, rfl⟩; exact ⟨[], .nil, rfl⟩
    · rintro ⟨rs, hc, rfl⟩; cases hc; exact ⟨rfl, rfl⟩
  | cons p frames ih =>
    intro n hn buf s s' w
    obtain ⟨ps, rs⟩ := p
    obtain ⟨h1, h2, h3⟩ := h (ps, rs) (by simp)
    simp only at h1 h2 h3
    have hne := frame_ne_nil h1 h2
    obtain ⟨n, rfl⟩ : ∃ k, n = k + 1 := ⟨n - 1, by simp at hn; omega⟩
    obtain ⟨buf', f, pad, e1, e2, e3, _⟩ := C29_frame_roundtrip grow defs hg _ hne rs h3
      ((frames.flatMap fun p => arriving p.2).map rawReadReport) buf
    have hs : Scan f.spare f.data ps false := by
      rw [e2]; exact stream_scan (stream_pad (C02_written_is_stream ps h2) e3) _
    have step : batch D clock grow defs (n + 1) (((((ps, rs) :: frames).flatMap fun p => arriving p.2)).map rawReadReport) buf s =
        processFrame D clock s f >>= fun x =>
          batch D clock grow defs n ((frames.flatMap fun p => arriving p.2).map rawReadReport) buf' x.1 >>= fun y =>
          .ret (y.1, x.2 ++ y.2) := by
      rw [List.flatMap_cons, List.map_append, arriving_ok hg hmax hne h3, batch, frameReads, e1]
      obtain ⟨xs, hx⟩ := Ipod.frameReads_total (grow := grow) hd n ((frames.flatMap fun p => arriving p.2).map rawReadReport) buf'
      simp only [Out.bind_ret, batch, hx]
      rfl
    rw [step]
    have ih := ih (fun q hq => h q (by simp [hq])) n (by simp at hn; omega) buf'
    obtain ⟨fd, fs⟩ := f
    constructor
    · intro h
      cases hp : processFrame D clock s ⟨fd, fs⟩ with
      | panic => rw [hp] at h; cases h
      | ret x =>
        obtain ⟨s1, w1⟩ := x
        rw [hp, Out.bind_ret] at h
        cases hb : batch D clock grow defs n ((frames.flatMap fun p => arriving p.2).map rawReadReport) buf' s1 with
        | panic => simp only [hb] at h; cases h
        | ret y =>
          obtain ⟨s2, w2⟩ := y
          simp only [hb, Out.bind_ret, Out.ret.injEq, Prod.mk.injEq] at h
          obtain ⟨rfl, rfl⟩ := h
          obtain ⟨rs2, hc, rfl⟩ := (ih s1 s2 w2).1 hb
          obtain ⟨m, m', cmds, c, news, rs1, g1, g2, g3, rfl, rfl⟩ := (processFrame_iff hs).1 hp
          exact ⟨rs1 ++ rs2, .cons g1 g2 g3 hc, by simp⟩
    · rintro ⟨rs, hc, rfl⟩
      cases hc with
      | cons g1 g2 g3 hc =>
        rw [(processFrame_iff hs).2 ⟨_, _, _, _, _, _, g1, g2, g3, rfl, rfl⟩, Out.bind_ret]
        simp only [(ih _ s' _).2 ⟨_, hc, rfl⟩, Out.bind_ret, List.map_append]

theorem serve_conversation {σ : Type} {D : Device σ} {clock : Clock} {grow : Growth} {defs : List ReportDef} (hg : GoodTable defs)
    (hmax : ∀ d ∈ defs, d.maxPayload ≤ 1022) (frames : List (List Bytes × List Report)) (h : ∀ p ∈ frames, SentAs defs p)
    (s s' : Srv σ) (w : List Bytes) :
    serve D clock grow defs (frames.flatMap fun p => arriving p.2) s = .ret (s', w) ↔
      ∃ rs, Conversation D clock s (frames.map (·.1)) s' rs ∧ w = rs.map frameOf := by
  refine batch_conversation hg hmax frames h _ ?_ ⟨[], []⟩ s s' w
  clear s s' w
  induction frames with
  | nil => simp
  | cons p frames ih =>
    obtain ⟨h1, h2, h3⟩ := h p (by simp)
    have := reports_ne_nil hg (frame_ne_nil h1 h2) h3
    have := ih (fun q hq => h q (by simp [hq]))
    simp only [List.flatMap_cons, List.length_append, List.length_cons, arriving, List.length_map] at this ⊢
    omega

/-- The replies to a conversation are determined. -/
theorem C78_conversation_unique {σ : Type} {D : Device σ} {clock : Clock} {s s1 s2 : Srv σ} {batches : List (List Bytes)}
    {r1 r2 : List (Except Err Bytes)} (h1 : Conversation D clock s batches s1 r1) (h2 : Conversation D clock s batches s2 r2) :
    s1 = s2 ∧ r1 = r2 := by
  induction h1 generalizing s2 r2 with
  | nil => cases h2; exact ⟨rfl, rfl⟩
  | cons a1 a2 a3 _ ih =>
    cases h2 with
    | cons b1 b2 b3 h2 =>
      obtain ⟨rfl, rfl⟩ := decoded_unique a1 b1
      obtain ⟨rfl, rfl⟩ := handledEach_unique a2 b2
      obtain ⟨rfl, rfl⟩ := encoded_unique a3 b3
      obtain ⟨rfl, rfl⟩ := ih h2
      exact ⟨rfl, rfl⟩

/-- C78, server side. Given requests in HID reports, the server ends in a state iff the same requests given as packets
take it there (in particular it panics on the reports iff there is no such conversation). Missing: request packets of 256 bytes, which the
packet writer spoils (`C01_fails_at_256`). -/
theorem C78_served_iff_partial {σ : Type} (D : Device σ) (clock : Clock) (grow : Growth) (defs : List ReportDef) (hg : GoodTable defs)
    (hmax : ∀ d ∈ defs, d.maxPayload ≤ 1022) (frames : List (List Bytes × List Report)) (h : ∀ p ∈ frames, SentAs defs p)
    (s s' : Srv σ) :
    (∃ w, serve D clock grow defs (frames.flatMap fun p => arriving p.2) s = .ret (s', w)) ↔
      ∃ rs, Conversation D clock s (frames.map (·.1)) s' rs := by
  simp only [serve_conversation hg hmax frames h]
  exact ⟨fun ⟨w, rs, h, _⟩ => ⟨rs, h⟩, fun ⟨rs, h⟩ => ⟨_, rs, h, rfl⟩⟩

theorem encoded_length {m m' : Bool} {cmds : List Command} {rs : List (Except Err Bytes)} (h : Encoded m cmds m' rs) (p : Bytes)
    (hp : .ok p ∈ rs) : 1 ≤ p.length := by
  induction h with
  | nil => simp at hp
  | @cons m m' m'' cmd cmds r rs a _ ih =>
    rcases List.mem_cons.1 hp with e | hp
    · subst e
      have : (marshalCmd m cmd).2 = .ok p := by rw [a]
      exact List.length_pos_iff.2 (marshal_ne_nil this)
    · exact ih hp

/-- C78, both sides. Requests go out in HID reports, the server answers, its frames go back in HID reports: the accessory receives,
frame by frame, exactly the packets the conversation has for answers, those that could be encoded. The tables, buffers and growth
policies of the two sides may be different. Missing: packets of 256 bytes or more than 65535. -/
theorem C78_session_partial {σ : Type} (D : Device σ) (clock : Clock) (grow grow' : Growth) (defs defs' : List ReportDef)
    (hg : GoodTable defs) (hg' : GoodTable defs') (hmax : ∀ d ∈ defs, d.maxPayload ≤ 1022) (hmax' : ∀ d ∈ defs', d.maxPayload ≤ 1022)
    (frames : List (List Bytes × List Report)) (h : ∀ p ∈ frames, SentAs defs p) (s s' : Srv σ) (w : List Bytes)
    (hs : serve D clock grow defs (frames.flatMap fun p => arriving p.2) s = .ret (s', w)) :
    ∃ rs, Conversation D clock s (frames.map (·.1)) s' rs ∧
      ((∀ p, .ok p ∈ rs → p.length ≤ 65535 ∧ p.length ≠ 256) →
      ∀ back : List (List Report), back.length = w.length → (∀ x ∈ w.zip back, Written defs' x.1 x.2) → ∀ buf,
        receive grow' defs' ((rs.filterMap Except.toOption).map fun _ => 2) (back.flatMap arriving) buf =
          .ret ((rs.filterMap Except.toOption).map fun p => .ok [.ok p, .error .eof])) := by
  obtain ⟨rs, hc, rfl⟩ := (serve_conversation hg hmax frames h s s' w).1 hs
  refine ⟨rs, hc, fun hp back hl hb buf => ?_⟩
  have hne : ∀ p, .ok p ∈ rs → 1 ≤ p.length := by
    clear hs h hp hb hl back
    intro p hm
    generalize frames.map (·.1) = batches at hc
    induction hc with
    | nil => simp at hm
    | @cons s s' ps batches m m' cmds c news rs rs' _ _ a3 _ ih =>
      rcases List.mem_append.1 hm with hm | hm
      · clear ih
        exact encoded_length a3 p hm
      · exact ih hm
  have key := C56_received_partial grow' defs' hg' hmax' (rs.zip ((rs.map frameOf).zip back)) (by
    intro x hx
    obtain ⟨r, f, b⟩ := x
    have hr : r ∈ rs := (List.of_mem_zip hx).1
    have hf : (f, b) ∈ (rs.map frameOf).zip back := (List.of_mem_zip hx).2
    have e : f = frameOf r := by
      clear hc hs hp hne hr hf hb
      induction rs generalizing back with
      | nil => simp at hx
      | cons r0 rs ih =>
        cases back with
        | nil => simp at hl
        | cons b0 back =>
          simp only [List.map_cons, List.zip_cons_cons, List.mem_cons, Prod.mk.injEq] at hx
          rcases hx with ⟨rfl, rfl, rfl⟩ | hx
          · rfl
          · exact ih back (by simpa using hl) hx
    subst e
    refine ⟨frameOf_frameFor fun p he => ?_, fun p he => ?_, hb _ hf⟩
    · subst he
      exact ⟨List.ne_nil_of_length_pos (hne p hr), hp p hr⟩
    · subst he
      exact ⟨hne p hr, (hp p hr).1, (hp p hr).2, rfl⟩) buf
  have e1 : (rs.zip ((rs.map frameOf).zip back)).filterMap (fun x => x.1.toOption) = rs.filterMap Except.toOption := by
    clear key hb hne hp hc hs
    induction rs generalizing back with
    | nil => rfl
    | cons r0 rs ih =>
      cases back with
      | nil => simp at hl
      | cons b0 back =>
        have := ih back (by simpa using hl)
        simp only [List.map_cons, List.zip_cons_cons, List.filterMap_cons, this]
  have e2 : (rs.zip ((rs.map frameOf).zip back)).flatMap (fun x => x.2.2.map fun r => (⟨rawReportBytes r, none⟩ : ReadRes)) =
      back.flatMap arriving := by
    clear key hb hne hp hc hs e1
    induction rs generalizing back with
    | nil => simp only [List.map_nil, List.length_nil, List.length_eq_zero_iff] at hl; subst hl; rfl
    | cons r0 rs ih =>
      cases back with
      | nil => simp at hl
      | cons b0 back =>
        have := ih back (by simpa using hl)
        simp only [List.map_cons, List.zip_cons_cons, List.flatMap_cons, this]
        rfl
  simp only [e1, e2] at key
  exact key

/-- The answers to questions that are answered in every state, as a conversation. -/
theorem conversation_exists {σ : Type} {D : Device σ} {clock : Clock} (s : Srv σ) (qs : List (Bytes × Bytes))
    (h : ∀ x ∈ qs, ∀ c, AnsweredBy D clock c s.mode x.1 x.2) :
    ∃ s', Conversation D clock s (qs.map fun x => [x.1]) s' (qs.map fun x => .ok x.2) ∧ s'.mode = s.mode ∧ s'.ctx.dev = s.ctx.dev := by
  induction qs generalizing s with
  | nil => exact ⟨s, .nil, rfl, rfl⟩
  | cons x qs ih =>
    obtain ⟨cmd, h1, h2⟩ := h x (by simp) { s.ctx with out := [] }
    obtain ⟨c, news, _, h3, h4⟩ := handleAll_ret D clock [cmd] { s.ctx with out := [] }
    cases h3 with
    | @cons _ _ _ c1 _ new news g1 g2 =>
      cases g2
      obtain ⟨g3, y, rfl, g4⟩ := h2 _ _ g1
      obtain ⟨s', i1, i2, i3⟩ := ih ⟨s.mode, { c with out := [] }⟩ (fun x hx => h x (by simp [hx]))
      refine ⟨s', ?_, i2, i3.trans g3⟩
      have := Conversation.cons (D := D) (clock := clock) (s := s) (ps := [x.1]) (Decoded.cons h1 .nil) (.cons g1 .nil)
        (m' := s.mode) (rs := [.ok x.2]) (.cons g4 .nil) i1
      exact this

/-- C78, questions and answers. Questions that are answered in every state, one frame each, in HID reports; the frames written go back
in HID reports. The accessory receives the answers, one per question, in order; the server's device has not changed. Missing: packets
of 256 bytes or more than 65535. -/
theorem C78_dialogue_partial {σ : Type} (D : Device σ) (clock : Clock) (grow grow' : Growth) (defs defs' : List ReportDef)
    (hg : GoodTable defs) (hg' : GoodTable defs') (hmax : ∀ d ∈ defs, d.maxPayload ≤ 1022) (hmax' : ∀ d ∈ defs', d.maxPayload ≤ 1022)
    (s : Srv σ) (dialogue : List (Bytes × Bytes × List Report))
    (h : ∀ x ∈ dialogue, (∀ c, AnsweredBy D clock c s.mode x.1 x.2.1) ∧ Sendable x.1 ∧ Sendable x.2.1 ∧
      Written defs (writePacket newPacketWriter x.1).1 x.2.2) :
    ∃ s' w, serve D clock grow defs (dialogue.flatMap fun x => arriving x.2.2) s = .ret (s', w) ∧ s'.mode = s.mode ∧
      s'.ctx.dev = s.ctx.dev ∧ w.length = dialogue.length ∧
      ∀ back : List (List Report), back.length = w.length → (∀ x ∈ w.zip back, Written defs' x.1 x.2) → ∀ buf,
        receive grow' defs' (dialogue.map fun _ => 2) (back.flatMap arriving) buf =
          .ret (dialogue.map fun x => .ok [.ok x.2.1, .error .eof]) := by
  obtain ⟨s', hc, hm, hdev⟩ := conversation_exists (D := D) (clock := clock) s (dialogue.map fun x => (x.1, x.2.1)) (by
    intro x hx c
    obtain ⟨y, hy, rfl⟩ := List.mem_map.1 hx
    exact (h y hy).1 c)
  have hs : ∀ p ∈ dialogue.map (fun x => ([x.1], x.2.2)), SentAs defs p := by
    intro p hp
    obtain ⟨y, hy, rfl⟩ := List.mem_map.1 hp
    obtain ⟨_, h2, _, h4⟩ := h y hy
    exact ⟨by simp, by simpa using h2, h4⟩
  have hserve := (serve_conversation (D := D) (clock := clock) (grow := grow) hg hmax _ hs s s' _).2
    ⟨dialogue.map fun x => .ok x.2.1, by simpa [List.map_map, Function.comp_def] using hc, rfl⟩
  rw [List.flatMap_map] at hserve
  refine ⟨s', _, hserve, hm, hdev, by simp, fun back hl hb buf => ?_⟩
  rw [← List.flatMap_map (f := fun x : Bytes × Bytes × List Report => (([x.1], x.2.2) : List Bytes × List Report))
    (g := fun p => arriving p.2)] at hserve
  obtain ⟨rs, hc', hrec⟩ := C78_session_partial D clock grow grow' defs defs' hg hg' hmax hmax' _ hs s s' _ hserve
  have hc'' : Conversation D clock s ((dialogue.map fun x => (([x.1], x.2.2) : List Bytes × List Report)).map (·.1)) s'
      (dialogue.map fun x => .ok x.2.1) := by simpa [List.map_map, Function.comp_def] using hc
  obtain ⟨_, rfl⟩ := C78_conversation_unique hc'' hc'
  have := hrec (by
    intro p hp
    obtain ⟨y, hy, he⟩ := List.mem_map.1 hp
    cases he
    exact (h y hy).2.2.1.2) back hl hb buf
  have e : (dialogue.map fun x => (Except.ok x.2.1 : Except Err Bytes)).filterMap Except.toOption = dialogue.map (·.2.1) := by
    generalize dialogue = l
    induction l with
    | nil => rfl
    | cons x xs ih => rw [List.map_cons, List.map_cons, ← ih]; rfl
  simpa [e, List.map_map, Function.comp_def] using this

theorem ipodReply_short {k k' : UInt8} {body reply : Bytes} (h : IpodReply k body k' reply) (trx : Option UInt16) :
    Sendable (generalPacket k trx body) ∧ Sendable (generalPacket k' trx reply) := by
  have ht : (transactionBytes trx).length ≤ 2 := by
    cases trx <;> simp [transactionBytes]
  have hb : body.length ≤ 1 ∧ reply.length ≤ 12 := by cases h <;> simp
  simp only [Sendable, generalPacket, List.length_cons, List.length_append]
  omega

/-- C78, the emulated iPod. In any state, the accessory asks any questions about the iPod's identity, in any order, each with its
own transaction or, while transactions are off, without: over HID it receives the answers listed in `IpodReply`, each under the
transaction of its question, in order. -/
theorem C78_identity {clock : Clock} (grow grow' : Growth) (defs defs' : List ReportDef) (hg : GoodTable defs)
    (hg' : GoodTable defs') (hmax : ∀ d ∈ defs, d.maxPayload ≤ 1022) (hmax' : ∀ d ∈ defs', d.maxPayload ≤ 1022) (s : Srv DevGeneral)
    (questions : List (Option UInt16 × (UInt8 × Bytes) × (UInt8 × Bytes))) (requests : List (List Report))
    (h : ∀ x ∈ questions, (x.1.isSome = true → s.mode = true) ∧ IpodReply x.2.1.1 x.2.1.2 x.2.2.1 x.2.2.2)
    (hl : requests.length = questions.length)
    (hr : ∀ x ∈ questions.zip requests,
      Written defs (writePacket newPacketWriter (generalPacket x.1.2.1.1 x.1.1 x.1.2.1.2)).1 x.2) :
    ∃ s' w, serve devGeneral clock grow defs (requests.flatMap arriving) s = .ret (s', w) ∧ w.length = questions.length ∧
      ∀ back : List (List Report), back.length = w.length → (∀ x ∈ w.zip back, Written defs' x.1 x.2) → ∀ buf,
        receive grow' defs' (questions.map fun _ => 2) (back.flatMap arriving) buf =
          .ret (questions.map fun x => .ok [.ok (generalPacket x.2.2.1 x.1 x.2.2.2), .error .eof]) := by
  obtain ⟨s', w, h1, _, _, h4, h5⟩ := C78_dialogue_partial devGeneral clock grow grow' defs defs' hg hg' hmax hmax' s
    ((questions.zip requests).map fun x => (generalPacket x.1.2.1.1 x.1.1 x.1.2.1.2, generalPacket x.1.2.2.1 x.1.1 x.1.2.2.2, x.2)) (by
      intro x hx
      obtain ⟨y, hy, rfl⟩ := List.mem_map.1 hx
      obtain ⟨hm, hi⟩ := h y.1 (List.of_mem_zip hy).1
      have hsh := ipodReply_short hi y.1.1
      exact ⟨fun c => C72_identity c s.mode _ hm _ _ _ _ hi, hsh.1, hsh.2, hr y hy⟩)
  have ef : ((questions.zip requests).map fun x => (generalPacket x.1.2.1.1 x.1.1 x.1.2.1.2,
      generalPacket x.1.2.2.1 x.1.1 x.1.2.2.2, x.2)).flatMap (fun x => arriving x.2.2) = requests.flatMap arriving := by
    rw [List.flatMap_map, ← List.flatMap_map (f := fun x : (Option UInt16 × (UInt8 × Bytes) × (UInt8 × Bytes)) × List Report => x.2)
      (g := arriving), List.map_snd_zip (by omega)]
  have em : ∀ {β : Type} (f : Option UInt16 × (UInt8 × Bytes) × (UInt8 × Bytes) → β),
      (questions.zip requests).map (fun x => f x.1) = questions.map f := by
    intro β f
    rw [show (fun x : (Option UInt16 × (UInt8 × Bytes) × (UInt8 × Bytes)) × List Report => f x.1) = f ∘ Prod.fst from rfl,
      ← List.map_map, List.map_fst_zip (by omega)]
  rw [ef] at h1
  refine ⟨s', w, h1, by rw [h4, List.length_map, List.length_zip]; omega, fun back hb1 hb2 buf => ?_⟩
  have := h5 back hb1 hb2 buf
  simp only [List.map_map, Function.comp_def] at this
  rw [em (fun _ => 2), em (fun x => (Except.ok [Except.ok (generalPacket x.2.2.1 x.1 x.2.2.2), .error .eof] : Except Err (List (Except Err Bytes))))] at this
  exact this

/-- Requests as C78 wants them: two packets in one frame, one packet in the next. -/
example : ∃ frames : List (List Bytes × List Report), frames.map (·.1) = [[[0x00, 0x07], [0x00, 0x09]], [[0x00, 0x0B]]] ∧
    ∀ p ∈ frames, SentAs defaultReportDefs p := by
  obtain ⟨r1, h1, _⟩ := C29_written defaultReportDefs goodTable_default (writePackets newPacketWriter [[0x00, 0x07], [0x00, 0x09]])
    (by decide)
  obtain ⟨r2, h2, _⟩ := C29_written defaultReportDefs goodTable_default (writePackets newPacketWriter [[0x00, 0x0B]]) (by decide)
  refine ⟨[([[0x00, 0x07], [0x00, 0x09]], r1), ([[0x00, 0x0B]], r2)], rfl, ?_⟩
  simp only [List.mem_cons, List.not_mem_nil, or_false, forall_eq_or_imp, forall_eq]
  exact ⟨⟨by simp, by simp [Sendable], h1⟩, ⟨by simp, by simp [Sendable], h2⟩⟩

/-- The name is asked, then the version, over the default table, without transactions; the answers come over the legacy table. -/
example {clock : Clock} : ∃ r1 r2, ∃ s' w,
    serve devGeneral clock (fun _ _ => 0) defaultReportDefs (arriving r1 ++ arriving r2) (Srv.init DevGeneral.zero) = .ret (s', w) ∧
    w.length = 2 ∧ ∀ back : List (List Report), back.length = w.length → (∀ x ∈ w.zip back, Written legacyReportDefs x.1 x.2) →
      receive (fun _ _ => 7) legacyReportDefs [2, 2] (back.flatMap arriving) ⟨[1], [2]⟩ =
        .ret [.ok [.ok [0x00, 0x08, 0x69, 0x70, 0x6F, 0x64, 0x2D, 0x67, 0x61, 0x64, 0x67, 0x65, 0x74, 0x00], .error .eof],
          .ok [.ok [0x00, 0x0A, 7, 1, 2], .error .eof]] := by
  obtain ⟨r1, h1, _⟩ := C29_written defaultReportDefs goodTable_default (writePacket newPacketWriter [0x00, 0x07]).1 (by decide)
  obtain ⟨r2, h2, _⟩ := C29_written defaultReportDefs goodTable_default (writePacket newPacketWriter [0x00, 0x09]).1 (by decide)
  obtain ⟨s', w, g1, g2, g3⟩ := C78_identity (clock := clock) (fun _ _ => 0) (fun _ _ => 7) defaultReportDefs legacyReportDefs
    goodTable_default goodTable_legacy (by decide) (by decide) (Srv.init DevGeneral.zero)
    [(none, (0x07, []), (0x08, _)), (none, (0x09, []), (0x0A, _))] [r1, r2]
    (by
      simp only [List.mem_cons, List.not_mem_nil, or_false, forall_eq_or_imp, forall_eq]
      exact ⟨⟨nofun, .name⟩, ⟨nofun, .softwareVersion⟩⟩)
    rfl
    (by
      simp only [List.zip_cons_cons, List.zip_nil_right, List.mem_cons, List.not_mem_nil, or_false, forall_eq_or_imp, forall_eq]
      exact ⟨h1, h2⟩)
  refine ⟨r1, r2, s', w, ?_, g2, fun back a b => g3 back a b _⟩
  simpa using g1

end Props
