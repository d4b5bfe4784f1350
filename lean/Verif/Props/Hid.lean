import Verif.Lemmas.Hid
import Verif.Props.Packet

/-! # Properties C29–C37: the HID transport -/

namespace Props
open Go Spec Ipod Ipod.Hid

/-- `rs` are the reports `WriteFrame` hands to a writer that does not fail. -/
def Written (defs : List ReportDef) (frame : Bytes) (rs : List Report) : Prop :=
  ∃ fuel, writeFrameFor fuel defs (fun _ => none) [] frame = some (.ret (rs, none))

/-- Successive `ReadFrame` calls: what each delivered. -/
def readFrames (grow : Growth) (defs : List ReportDef) :
    Nat → List (Except Err Report) → Slice → Out (List (Except Err Bytes))
  | 0, _, _ => .ret []
  | n + 1, rs, buf =>
    match readFrame grow defs rs buf with
    | .panic => .panic
    | .ret (rs, buf, res) => readFrames grow defs n rs buf >>= fun more => .ret (res.map (·.data) :: more)

theorem goodTable_default : GoodTable defaultReportDefs := by
  refine ⟨by decide, by decide, by decide, ⟨⟨1, 12, .accIn⟩, by decide, rfl⟩⟩

theorem goodTable_legacy : GoodTable legacyReportDefs := by
  refine ⟨by decide, by decide, by decide, ⟨⟨1, 5, .accIn⟩, by decide, rfl⟩⟩

/-- What is written is unique, and exists. -/
theorem written_chunks {defs : List ReportDef} (hg : GoodTable defs) {frame : Bytes} (hf : frame ≠ []) :
    ∃ rs, Chunks defs true frame rs ∧ rs.length ≤ frame.length ∧
      (∀ fuel log fails, frame.length < fuel →
        writeFrameFor fuel defs fails log frame = some (.ret (outcome fails log rs))) ∧
      ∀ rs', Written defs frame rs' ↔ rs' = rs := by
  obtain ⟨rs, h1, h2, h3⟩ := writeFrameLoop_spec defs (fun d hd _ => hg.carries d hd) hg.hasIn frame frame.length 0
    (by simp) (by simpa using hf)
  simp only [List.drop_zero, decide_true] at h1
  refine ⟨rs, h1, h2, h3, ?_⟩
  have hok : outcome (fun _ => none) [] rs = (rs, none) := by
    rw [outcome_ok _ _ _ (fun _ _ => rfl), List.nil_append]
  intro rs'
  constructor
  · rintro ⟨fuel, hw⟩
    have hm := writeFrameLoop_mono (Nat.le_max_left fuel (frame.length + 1)) hw
    rw [h3 _ _ _ (by omega), hok] at hm
    simp only [Option.some.injEq, Out.ret.injEq, Prod.mk.injEq, and_true] at hm
    exact hm.symm
  · rintro rfl
    refine ⟨frame.length + 1, ?_⟩
    rw [writeFrameFor, h3 _ _ _ (by omega), hok]

theorem written_is_chunks {defs : List ReportDef} (hg : GoodTable defs) {frame : Bytes} (hf : frame ≠ [])
    {rs : List Report} (h : Written defs frame rs) : Chunks defs true frame rs := by
  obtain ⟨rs', h1, _, _, h2⟩ := written_chunks hg hf
  rw [(h2 rs).1 h]; exact h1

/-! ## C29 -/

/-- C29. The reports of a frame, whatever follows them and whatever the decoder's buffer held, are read as the frame
followed by zeros, fewer than one report holds; the decoder consumes exactly these reports. -/
theorem C29_frame_roundtrip (grow : Growth) (defs : List ReportDef) (hg : GoodTable defs) (frame : Bytes)
    (hf : frame ≠ []) (rs : List Report) (hw : Written defs frame rs) (tail : List (Except Err Report)) (buf : Slice) :
    ∃ buf' f pad, readFrame grow defs (rs.map .ok ++ tail) buf = .ret (tail, buf', .ok f) ∧
      f.data = frame ++ pad ∧ Zeros pad ∧ ∃ d ∈ defs, d.dir = .accIn ∧ (pad.length : Int) < d.maxPayload := by
  obtain ⟨buf', pad, h1, h2, h3⟩ :=
    readFrameLoop_chunks (grow := grow) hg (written_is_chunks hg hf hw) tail buf.reset
  exact ⟨buf', buf', pad, h1, by simpa using h2, h3⟩

/-- Every non-empty frame is written (without error, by finitely many reports), in exactly one way. -/
theorem C29_written (defs : List ReportDef) (hg : GoodTable defs) (frame : Bytes) (hf : frame ≠ []) :
    ∃ rs, Written defs frame rs ∧ ∀ rs', Written defs frame rs' → rs' = rs := by
  obtain ⟨rs, _, _, _, h⟩ := written_chunks hg hf
  exact ⟨rs, (h rs).2 rfl, fun rs' => (h rs').1⟩

/-- C29, several frames: successive calls deliver them one by one, then end of stream. -/
theorem C29_frames_roundtrip (grow : Growth) (defs : List ReportDef) (hg : GoodTable defs)
    (frames : List (Bytes × List Report)) (h : ∀ p ∈ frames, p.1 ≠ [] ∧ Written defs p.1 p.2) (buf : Slice) (k : Nat) :
    ∃ pads : List Bytes, pads.length = frames.length ∧ (∀ pad ∈ pads, Zeros pad) ∧
      readFrames grow defs (frames.length + k) (frames.flatMap fun p => p.2.map .ok) buf =
        .ret (List.zipWith (fun p pad => .ok (p.1 ++ pad)) frames pads ++ List.replicate k (.error .eof)) := by
  induction frames generalizing buf with
  | nil =>
    refine ⟨[], rfl, by simp, ?_⟩
    simp only [List.length_nil, Nat.zero_add, List.flatMap_nil, List.zipWith_nil_left, List.nil_append]
    induction k generalizing buf with
    | zero => rfl
    | succ k ih =>
      rw [readFrames]
      simp only [readFrame, readFrameLoop]
      rw [ih]
      rfl
  | cons p frames ih =>
    obtain ⟨h1, h2⟩ := h p (by simp)
    rw [show (p :: frames).length + k = (frames.length + k) + 1 from by simp; omega, readFrames, List.flatMap_cons]
    obtain ⟨buf', f, pad, e1, e2, e3, _⟩ := C29_frame_roundtrip grow defs hg p.1 h1 p.2 h2
      (frames.flatMap fun p => p.2.map .ok) buf
    obtain ⟨pads, i1, i2, i3⟩ := ih (fun q hq => h q (by simp [hq])) buf'
    refine ⟨pad :: pads, by simp [i1], by simpa using ⟨e3, i2⟩, ?_⟩
    simp only [e1, i3, Out.bind_ret, Except.map, e2]
    rfl

example (grow : Growth) : ∃ pads : List Bytes, pads.length = 2 ∧ (∀ pad ∈ pads, Zeros pad) ∧
    readFrames grow [⟨1, 3, .accIn⟩] 3 [.ok ⟨1, 2, [1, 2]⟩, .ok ⟨1, 1, [3, 0]⟩, .ok ⟨1, 0, [4, 0]⟩] ⟨[9], []⟩ =
      .ret (List.zipWith (fun p pad => .ok (p.1 ++ pad))
        [([1, 2, 3], [⟨1, 2, [1, 2]⟩, ⟨1, 1, [3, 0]⟩]), ([4], [(⟨1, 0, [4, 0]⟩ : Report)])] pads ++ List.replicate 1 (.error .eof)) :=
  C29_frames_roundtrip grow [⟨1, 3, .accIn⟩] ⟨by decide, by decide, by decide, ⟨⟨1, 3, .accIn⟩, by decide, rfl⟩⟩
    [([1, 2, 3], [⟨1, 2, [1, 2]⟩, ⟨1, 1, [3, 0]⟩]), ([4], [⟨1, 0, [4, 0]⟩])] (by
      intro p hp
      simp only [List.mem_cons, List.not_mem_nil, or_false] at hp
      rcases hp with rfl | rfl
      · exact ⟨by simp, 4, rfl⟩
      · exact ⟨by simp, 4, rfl⟩) ⟨[9], []⟩ 1

example : Written legacyReportDefs [1, 2, 3] [⟨1, 0, [1, 2, 3, 0]⟩] := ⟨4, by decide⟩
example : ∃ b f pad, readFrame (fun _ _ => 7) legacyReportDefs (([⟨1, 0, [1, 2, 3, 0]⟩] : List Report).map .ok ++ [])
    ⟨[9, 9], [8]⟩ = .ret ([], b, .ok f) ∧ f.data = [1, 2, 3] ++ pad ∧ Zeros pad ∧
      ∃ d ∈ legacyReportDefs, d.dir = .accIn ∧ (pad.length : Int) < d.maxPayload :=
  C29_frame_roundtrip _ _ goodTable_legacy [1, 2, 3] (by decide) _ ⟨4, by decide⟩ [] _

/-! ## C30 -/

/-- C30. The link controls are Done alone or MoreToFollow, Continue|MoreToFollow…, Continue; Done alone exactly if one
report is enough; the data is the frame and then zeros. -/
theorem C30_link_control (defs : List ReportDef) (hg : GoodTable defs) (frame : Bytes) (hf : frame ≠ [])
    (rs : List Report) (hw : Written defs frame rs) :
    LinkSeq (rs.map (·.linkControl)) ∧
    (rs.length = 1 ↔ ∃ d ∈ defs, d.dir = .accIn ∧ (frame.length : Int) ≤ d.maxPayload) ∧
    (dataOf rs).take frame.length = frame ∧ Zeros ((dataOf rs).drop frame.length) := by
  have hc := written_is_chunks hg hf hw
  obtain ⟨_, pad, h2, h3, _⟩ := hc.data hg
  refine ⟨hc.linkSeq, ?_, by rw [h2]; simp, by rw [h2]; simpa using h3⟩
  constructor
  · intro h1
    cases hc with
    | last p1 _ p3 => exact ⟨_, (pick_some p1).1, (pick_some p1).2, p3⟩
    | more _ _ _ _ p => exact absurd (List.length_eq_zero_iff.1 (by simpa using h1)) p.ne_nil
  · rintro ⟨d, d1, d2, d3⟩
    cases hc with
    | last => rfl
    | @more _ part rest d' rs p1 p2 p3 p4 p =>
      exfalso
      have hr : rest.length ≠ 0 := by simpa using p4
      rw [pick] at p1
      rcases pickLoop_spec ((part ++ rest).length) .accIn defs none with
        ⟨pre, d'', post, _, _, q, _, h5⟩ | ⟨h6, _⟩
      · rw [h5] at p1
        cases p1
        simp at q
        omega
      · have := h6 d d1 d2
        omega

example : LinkSeq [2, 3, 1] ∧ (([⟨1, 2, [1, 2]⟩, ⟨1, 3, [3, 4]⟩, ⟨1, 1, [5, 0]⟩] : List Report).length = 1 ↔
    ∃ d ∈ [(⟨1, 3, .accIn⟩ : ReportDef)], d.dir = .accIn ∧ (5 : Int) ≤ d.maxPayload) :=
  have h := C30_link_control [⟨1, 3, .accIn⟩] ⟨by decide, by decide, by decide, ⟨⟨1, 3, .accIn⟩, by decide, rfl⟩⟩ [1, 2, 3, 4, 5]
    (by decide) [⟨1, 2, [1, 2]⟩, ⟨1, 3, [3, 4]⟩, ⟨1, 1, [5, 0]⟩] ⟨6, by decide⟩
  ⟨h.1, h.2.1⟩

example : Written legacyReportDefs (List.replicate 800 7)
    [⟨12, 2, List.replicate 766 7⟩, ⟨6, 1, List.replicate 34 7 ++ List.replicate 14 0⟩] := ⟨3, by decide +kernel⟩
example : LinkSeq [2, 3, 3, 1] := .several 2
example : Written [⟨1, 3, .accIn⟩] [1, 2, 3, 4, 5] [⟨1, 2, [1, 2]⟩, ⟨1, 3, [3, 4]⟩, ⟨1, 1, [5, 0]⟩] :=
  ⟨6, by decide⟩

/-! ## C31 -/

/-- C31, any table. Every report is of a device-to-host definition and completely filled. -/
theorem C31_fits_descriptor (defs : List ReportDef) (hg : GoodTable defs) (frame : Bytes) (hf : frame ≠ [])
    (rs : List Report) (hw : Written defs frame rs) : ∀ r ∈ rs, ∃ d ∈ defs, FilledBy d r :=
  ((written_is_chunks hg hf hw).data hg).1

example : ∀ r ∈ [(⟨1, 0, [1, 2, 3, 0]⟩ : Report)], ∃ d ∈ legacyReportDefs, FilledBy d r :=
  C31_fits_descriptor legacyReportDefs goodTable_legacy [1, 2, 3] (by decide) _ ⟨4, by decide⟩

/-- C31, the shipped tables: id and number of payload bytes of the reports sent, as in the HID report descriptors of the
gadget driver. -/
theorem C31_report_sizes (frame : Bytes) (hf : frame ≠ []) (rs : List Report) (r : Report) (hr : r ∈ rs) :
    (Written defaultReportDefs frame rs → (r.id.toNat, r.data.length) ∈
      [(1, 11), (2, 13), (3, 19), (4, 62), (5, 7), (6, 9), (7, 13), (8, 19), (9, 62)]) ∧
    (Written legacyReportDefs frame rs → (r.id.toNat, r.data.length) ∈
      [(1, 4), (2, 8), (3, 12), (4, 16), (5, 24), (6, 48), (7, 94), (8, 192), (9, 256), (10, 384), (11, 512), (12, 766)]) := by
  have fin : ∀ (defs : List ReportDef) (l : List (Nat × Nat)),
      (∀ d ∈ defs, d.dir = .accIn → ∃ p ∈ l, d.id = (p.1 : Int) ∧ d.maxPayload = (p.2 : Int)) →
      (∃ d ∈ defs, FilledBy d r) → (r.id.toNat, r.data.length) ∈ l := by
    rintro defs l hl ⟨d, hd, h1, h2, h3⟩
    obtain ⟨⟨a, b⟩, hp, h4, h5⟩ := hl d hd h1
    have e1 : r.id.toNat = a := by simp only at h4; omega
    have e2 : r.data.length = b := by simp only at h5; omega
    rw [e1, e2]; exact hp
  exact ⟨fun hw => fin _ _ (by decide) (C31_fits_descriptor _ goodTable_default frame hf rs hw r hr),
    fun hw => fin _ _ (by decide) (C31_fits_descriptor _ goodTable_legacy frame hf rs hw r hr)⟩

example : (1, 11) ∈ [(1, 11), (2, 13), (3, 19), (4, 62), (5, 7), (6, 9), (7, 13), (8, 19), (9, 62)] :=
  (C31_report_sizes [1, 2, 3, 4, 5] (by decide) _ ⟨1, 0, [1, 2, 3, 4, 5, 0, 0, 0, 0, 0, 0]⟩ (List.mem_singleton.2 rfl)).1 ⟨6, by decide⟩

/-- `Pick` of a table whose device-to-host payloads do not decrease gives the best definition. -/
theorem pick_best (defs : List ReportDef) (n : Nat) (d : ReportDef)
    (hs : defs.Pairwise fun a b => a.dir = .accIn → b.dir = .accIn → a.maxPayload ≤ b.maxPayload)
    (h : pick defs n .accIn = some d) : BestDef defs n d := by
  rw [pick] at h
  rcases pickLoop_spec n .accIn defs none with ⟨pre, d', post, h1, h2, h3, h4, h5⟩ | ⟨h6, ⟨pre, d', post, h1, h2, h3, h5⟩ | ⟨h2, h3⟩⟩
  · rw [h5] at h; cases h
    left
    refine ⟨h3, ?_⟩
    intro x hx hxd hxn
    rw [h1] at hx hs
    rcases List.mem_append.1 hx with hx | hx
    · have := h4 x hx hxd; omega
    · rcases List.mem_cons.1 hx with rfl | hx
      · exact Int.le_refl _
      · exact (List.pairwise_cons.1 (List.pairwise_append.1 hs).2.1).1 x hx h2 hxd
  · rw [h5] at h; cases h
    right
    refine ⟨h6 d (by rw [h1]; simp) h2, ?_⟩
    intro x hx hxd
    rw [h1] at hx hs
    rcases List.mem_append.1 hx with hx | hx
    · exact (List.pairwise_append.1 hs).2.2 x hx d (by simp) hxd h2
    · rcases List.mem_cons.1 hx with rfl | hx
      · exact Int.le_refl _
      · exact absurd hxd (h3 x hx)
  · rw [h3] at h; simp at h

/-- C31, the legacy table: every report is the best for what is left of the frame when it is written. -/
theorem C31_best_legacy (frame : Bytes) (hf : frame ≠ []) (rs : List Report) (hw : Written legacyReportDefs frame rs)
    (i : Nat) (r : Report) (hr : rs[i]? = some r) :
    ∃ d ∈ legacyReportDefs, FilledBy d r ∧
      BestDef legacyReportDefs (frame.length - (dataOf (rs.take i)).length) d := by
  obtain ⟨_, d, h1, h2, h3⟩ := (written_is_chunks goodTable_legacy hf hw).picked goodTable_legacy i r hr
  exact ⟨d, h2, h3, pick_best _ _ _ (by decide) h1⟩

example : ∃ d ∈ legacyReportDefs, FilledBy d ⟨6, 1, List.replicate 34 7 ++ List.replicate 14 0⟩ ∧
    BestDef legacyReportDefs ((List.replicate 800 (7 : UInt8)).length -
      (dataOf ([⟨12, 2, List.replicate 766 7⟩, ⟨6, 1, List.replicate 34 7 ++ List.replicate 14 0⟩].take 1)).length) d :=
  C31_best_legacy (List.replicate 800 7) (fun h => absurd (congrArg List.length h) (by rw [List.length_replicate]; decide))
    [⟨12, 2, List.replicate 766 7⟩, ⟨6, 1, List.replicate 34 7 ++ List.replicate 14 0⟩] ⟨3, by decide +kernel⟩ 1 _ rfl

/-- C31, the default table (partial: only while at least ten bytes are left). For fewer the claim is false, see
`C31_default_not_best`. -/
theorem C31_best_default_partial (frame : Bytes) (hf : frame ≠ []) (rs : List Report)
    (hw : Written defaultReportDefs frame rs) (i : Nat) (r : Report) (hr : rs[i]? = some r)
    (hleft : 10 ≤ frame.length - (dataOf (rs.take i)).length) :
    ∃ d ∈ defaultReportDefs, FilledBy d r ∧
      BestDef defaultReportDefs (frame.length - (dataOf (rs.take i)).length) d := by
  obtain ⟨_, d, h1, h2, h3⟩ := (written_is_chunks goodTable_default hf hw).picked goodTable_default i r hr
  refine ⟨d, h2, h3, ?_⟩
  generalize frame.length - (dataOf (rs.take i)).length = n at *
  -- the definitions from 11 bytes of payload on are in order; the two small ones never fit
  have key : pick [⟨0x01, 12, .accIn⟩, ⟨0x02, 14, .accIn⟩, ⟨0x03, 20, .accIn⟩, ⟨0x04, 63, .accIn⟩] n .accIn = some d ∨
      (62 < n ∧ d = ⟨0x09, 63, .accIn⟩) := by
    rw [pick, defaultReportDefs] at h1
    rw [pick]
    simp only [pickLoop, if_true] at h1 ⊢
    by_cases c1 : (⟨0x01, 12, .accIn⟩ : ReportDef).maxPayload ≥ n
    · left; rw [if_pos c1] at h1 ⊢; exact h1
    · by_cases c2 : (⟨0x02, 14, .accIn⟩ : ReportDef).maxPayload ≥ n
      · left; rw [if_neg c1, if_pos c2] at h1 ⊢; exact h1
      · by_cases c3 : (⟨0x03, 20, .accIn⟩ : ReportDef).maxPayload ≥ n
        · left; rw [if_neg c1, if_neg c2, if_pos c3] at h1 ⊢; exact h1
        · by_cases c4 : (⟨0x04, 63, .accIn⟩ : ReportDef).maxPayload ≥ n
          · left
            rw [if_neg c1, if_neg c2, if_neg c3, if_pos c4] at h1
            rw [if_neg c1, if_neg c2, if_neg c3]
            split <;> exact h1
          · right
            rw [if_neg c1, if_neg c2, if_neg c3, if_neg c4, if_neg (by simp [ReportDef.maxPayload]; omega),
              if_neg (by simp [ReportDef.maxPayload]; omega), if_neg (show ¬ (⟨0x07, 14, .accIn⟩ : ReportDef).maxPayload ≥ n from c2),
              if_neg (show ¬ (⟨0x08, 20, .accIn⟩ : ReportDef).maxPayload ≥ n from c3)] at h1
            refine ⟨by simp only [ReportDef.maxPayload] at c4; omega, ?_⟩
            split at h1 <;> exact (Option.some.inj h1).symm
  have hsmall : ∀ x ∈ defaultReportDefs, x.maxPayload ≤ 9 ∨
      ∃ y ∈ [(⟨0x01, 12, .accIn⟩ : ReportDef), ⟨0x02, 14, .accIn⟩, ⟨0x03, 20, .accIn⟩, ⟨0x04, 63, .accIn⟩],
        y.dir = .accIn ∧ y.maxPayload = x.maxPayload := by decide
  rcases key with hk | ⟨hk, rfl⟩
  · rcases pick_best _ n d (by decide) hk with ⟨k1, k2⟩ | ⟨k1, k2⟩
    · left
      refine ⟨k1, ?_⟩
      intro x hx hxd hxn
      rcases hsmall x hx with h | ⟨y, hy1, hy2, hy3⟩
      · omega
      · rw [← hy3]; exact k2 y hy1 hy2 (by omega)
    · right
      refine ⟨k1, ?_⟩
      intro x hx hxd
      rcases hsmall x hx with h | ⟨y, hy1, hy2, hy3⟩
      · have := k2 ⟨0x01, 12, .accIn⟩ (by decide) rfl
        simp only [ReportDef.maxPayload] at this h ⊢
        omega
      · rw [← hy3]; exact k2 y hy1 hy2
  · right
    refine ⟨by simp [ReportDef.maxPayload]; omega, ?_⟩
    have hall : ∀ x ∈ defaultReportDefs, x.dir = .accIn → x.maxPayload ≤ 62 := by decide
    exact hall

example : ∃ d ∈ defaultReportDefs, FilledBy d ⟨2, 0, [1, 2, 3, 4, 5, 6, 7, 8, 9, 10, 11, 12, 0]⟩ ∧ BestDef defaultReportDefs 12 d :=
  C31_best_default_partial [1, 2, 3, 4, 5, 6, 7, 8, 9, 10, 11, 12] (by decide) [⟨2, 0, [1, 2, 3, 4, 5, 6, 7, 8, 9, 10, 11, 12, 0]⟩]
    ⟨13, by decide⟩ 0 _ rfl (by decide)

/-- C31, the default table, negation: a frame of at most nine bytes goes out in an 11-byte report although a smaller
one would hold it. -/
theorem C31_default_not_best (frame : Bytes) (hf : frame ≠ []) (h9 : frame.length ≤ 9) (rs : List Report)
    (hw : Written defaultReportDefs frame rs) :
    ∃ r, rs = [r] ∧ r.data.length = 11 ∧ ∀ d ∈ defaultReportDefs, FilledBy d r →
      ¬ BestDef defaultReportDefs frame.length d := by
  have hc := written_is_chunks goodTable_default hf hw
  have hl : frame.length ≠ 0 := by simpa using hf
  have hp : pick defaultReportDefs frame.length .accIn = some ⟨0x01, 12, .accIn⟩ := by
    rw [pick, defaultReportDefs, pickLoop, if_pos rfl, if_pos (by simp [ReportDef.maxPayload]; omega)]
  cases hc with
  | last p1 _ p3 =>
    rw [hp] at p1
    cases p1
    refine ⟨_, rfl, by simp [ReportDef.maxPayload]; omega, ?_⟩
    rintro d hd ⟨_, _, h3⟩ hb
    have h3' : d.maxPayload = 11 := by
      rw [← h3]; simp [ReportDef.maxPayload]; omega
    rcases hb with ⟨_, hb⟩ | ⟨hb, _⟩
    · have := hb ⟨0x06, 10, .accIn⟩ (by decide) rfl (by simp [ReportDef.maxPayload]; omega)
      simp only [ReportDef.maxPayload] at this h3'
      omega
    · omega
  | more p1 p2 _ p4 _ =>
    rw [hp] at p1
    cases p1
    simp [ReportDef.maxPayload] at p2 h9
    omega

example : ∃ r, [(⟨1, 0, [1, 2, 3, 4, 5, 0, 0, 0, 0, 0, 0]⟩ : Report)] = [r] ∧ r.data.length = 11 ∧
    ∀ d ∈ defaultReportDefs, FilledBy d r → ¬ BestDef defaultReportDefs 5 d :=
  C31_default_not_best [1, 2, 3, 4, 5] (by decide) (by decide) _ ⟨6, by decide⟩

example : Written defaultReportDefs [1, 2, 3, 4, 5] [⟨1, 0, [1, 2, 3, 4, 5, 0, 0, 0, 0, 0, 0]⟩] := ⟨6, by decide⟩
example : Written defaultReportDefs [1, 2, 3, 4, 5, 6, 7, 8, 9, 10, 11, 12]
    [⟨2, 0, [1, 2, 3, 4, 5, 6, 7, 8, 9, 10, 11, 12, 0]⟩] := ⟨13, by decide⟩

/-! ## C32 -/

/-- C32. Reports of the table that do not end a frame - the beginning of an aborted frame, reports with undefined
link-control values, in any order - do not disturb the complete frame behind them. -/
theorem C32_recovers (grow : Growth) (defs : List ReportDef) (hg : GoodTable defs) (stray : List Report)
    (hs : ∀ r ∈ stray, (∃ d ∈ defs, d.id = r.id.toNat) ∧ r.linkControl ≠ 0x00 ∧ r.linkControl ≠ 0x01)
    (frame : Bytes) (hf : frame ≠ []) (rs : List Report) (hw : Written defs frame rs)
    (tail : List (Except Err Report)) (buf : Slice) :
    ∃ buf' f pad, readFrame grow defs (stray.map .ok ++ rs.map .ok ++ tail) buf = .ret (tail, buf', .ok f) ∧
      f.data = frame ++ pad ∧ Zeros pad ∧ ∃ d ∈ defs, d.dir = .accIn ∧ (pad.length : Int) < d.maxPayload := by
  obtain ⟨b1, h1⟩ := readFrameLoop_junk (grow := grow) (defs := defs) stray (by
    intro r hr
    obtain ⟨⟨d, d1, d2⟩, h2, h3⟩ := hs r hr
    refine ⟨?_, by rintro (h | h) <;> contradiction⟩
    obtain ⟨d', hd'⟩ : ∃ d', find defs r.id.toNat = some d' := by
      cases h : find defs r.id.toNat with
      | some d' => exact ⟨d', rfl⟩
      | none => exact absurd d2 (find_none.1 h d d1)
    have hm : d' ∈ defs := by
      obtain ⟨pre, post, e, _⟩ := find_some.1 hd'
      rw [e]; simp
    have := hg.carries d' hm
    exact ⟨_, accepted_iff.2 ⟨d', hd', by simp only [ReportDef.maxPayload]; omega, rfl⟩⟩) (rs.map .ok ++ tail) buf.reset
  obtain ⟨buf', pad, e1, e2, e3⟩ :=
    readFrameLoop_chunks (grow := grow) hg (written_is_chunks hg hf hw) tail b1
  refine ⟨buf', buf', pad, ?_, by simpa using e2, e3⟩
  rw [readFrame, List.append_assoc, h1, e1]

/-- C32 for an aborted frame: any proper prefix of the reports of any other frame. -/
theorem C32_recovers_from_abort (grow : Growth) (defs : List ReportDef) (hg : GoodTable defs)
    (aborted : Bytes) (ha : aborted ≠ []) (ars : List Report) (haw : Written defs aborted ars) (k : Nat) (hk : k < ars.length)
    (frame : Bytes) (hf : frame ≠ []) (rs : List Report) (hw : Written defs frame rs)
    (tail : List (Except Err Report)) (buf : Slice) :
    ∃ buf' f pad, readFrame grow defs ((ars.take k).map .ok ++ rs.map .ok ++ tail) buf = .ret (tail, buf', .ok f) ∧
      f.data = frame ++ pad ∧ Zeros pad ∧ ∃ d ∈ defs, d.dir = .accIn ∧ (pad.length : Int) < d.maxPayload := by
  refine C32_recovers grow defs hg _ ?_ frame hf rs hw tail buf
  intro r hr
  have hc := written_is_chunks hg ha haw
  have hls := hc.linkSeq
  obtain ⟨d, d1, _, d2, _⟩ := (hc.data hg).1 r (List.mem_of_mem_take hr)
  refine ⟨⟨d, d1, d2.symm⟩, ?_⟩
  have hm : r.linkControl ∈ (ars.map (·.linkControl)).take k := by
    rw [← List.map_take]; exact List.mem_map.2 ⟨r, hr, rfl⟩
  have hlen : k < (ars.map (·.linkControl)).length := by simpa using hk
  generalize ars.map (·.linkControl) = l at *
  cases hls with
  | single =>
    simp only [List.length_cons, List.length_nil] at hlen
    obtain rfl : k = 0 := by omega
    simp at hm
  | several n =>
    have hsub : (((0x02 : UInt8) :: (List.replicate n 0x03 ++ [0x01])).take k) =
        (((0x02 : UInt8) :: List.replicate n 0x03)).take k := by
      rw [← List.cons_append, List.take_append_of_le_length]
      simp at hlen ⊢
      omega
    rw [hsub] at hm
    have := List.mem_of_mem_take hm
    rcases List.mem_cons.1 this with h | h
    · rw [h]; decide
    · rw [(List.mem_replicate.1 h).2]; decide

example (grow : Growth) : ∃ buf' f pad, readFrame grow [⟨1, 3, .accIn⟩] [.ok ⟨1, 2, [1, 2]⟩, .ok ⟨1, 0, [7, 0]⟩, .error .eof] ⟨[9], []⟩ =
      .ret ([.error .eof], buf', .ok f) ∧ f.data = [7] ++ pad ∧ Zeros pad ∧
    ∃ d ∈ [(⟨1, 3, .accIn⟩ : ReportDef)], d.dir = .accIn ∧ (pad.length : Int) < d.maxPayload :=
  C32_recovers_from_abort grow [⟨1, 3, .accIn⟩] ⟨by decide, by decide, by decide, ⟨⟨1, 3, .accIn⟩, by decide, rfl⟩⟩ [1, 2, 3] (by decide)
    [⟨1, 2, [1, 2]⟩, ⟨1, 1, [3, 0]⟩] ⟨4, by decide⟩ 1 (by decide) [7] (by decide) [⟨1, 0, [7, 0]⟩] ⟨4, by decide⟩ [.error .eof] ⟨[9], []⟩

/-- C32 for what `ReadFrame` reports as an error (a failing read, a report of an unknown id), after any reports not
ending a frame: the call fails, and the frame behind is delivered intact by the next call. -/
theorem C32_recovers_from_error (grow : Growth) (defs : List ReportDef) (hg : GoodTable defs) (stray : List Report)
    (hs : ∀ r ∈ stray, (∃ d ∈ defs, d.id = r.id.toNat) ∧ r.linkControl ≠ 0x00 ∧ r.linkControl ≠ 0x01)
    (bad : Except Err Report) (hb : ∀ r, bad = .ok r → ∀ d ∈ defs, d.id ≠ r.id.toNat)
    (rest : List (Except Err Report)) (buf : Slice) :
    ∃ buf' e, readFrame grow defs (stray.map .ok ++ bad :: rest) buf = .ret (rest, buf', .error e) := by
  obtain ⟨b1, h1⟩ := readFrameLoop_junk (grow := grow) (defs := defs) stray (by
    intro r hr
    obtain ⟨⟨d, d1, d2⟩, h2, h3⟩ := hs r hr
    refine ⟨?_, by rintro (h | h) <;> contradiction⟩
    obtain ⟨d', hd'⟩ : ∃ d', find defs r.id.toNat = some d' := by
      cases h : find defs r.id.toNat with
      | some d' => exact ⟨d', rfl⟩
      | none => exact absurd d2 (find_none.1 h d d1)
    have hm : d' ∈ defs := by
      obtain ⟨pre, post, e, _⟩ := find_some.1 hd'
      rw [e]; simp
    have := hg.carries d' hm
    exact ⟨_, accepted_iff.2 ⟨d', hd', by simp only [ReportDef.maxPayload]; omega, rfl⟩⟩) (bad :: rest) buf.reset
  rw [readFrame, h1]
  cases bad with
  | error e => exact ⟨_, e, rfl⟩
  | ok r => rw [readFrameLoop, find_none.2 (hb r rfl)]; exact ⟨_, _, rfl⟩

/-- An unknown report within a frame. -/
example (grow : Growth) : ∃ buf' e, readFrame grow [⟨1, 3, .accIn⟩] [.ok ⟨1, 2, [1, 2]⟩, .ok ⟨8, 0, [7, 0]⟩, .ok ⟨1, 0, [7, 0]⟩] ⟨[9], []⟩ =
    .ret ([.ok ⟨1, 0, [7, 0]⟩], buf', .error e) :=
  C32_recovers_from_error grow [⟨1, 3, .accIn⟩] ⟨by decide, by decide, by decide, ⟨⟨1, 3, .accIn⟩, by decide, rfl⟩⟩ [⟨1, 2, [1, 2]⟩]
    (by simp) (.ok ⟨8, 0, [7, 0]⟩) (by rintro r h; cases h; decide) [.ok ⟨1, 0, [7, 0]⟩] ⟨[9], []⟩

/-- The first two of three reports, then a report with link control 9, then a whole frame. -/
example : ∃ b f pad, readFrame (fun _ _ => 0) [⟨1, 3, .accIn⟩]
    (([⟨1, 2, [1, 2]⟩, ⟨1, 3, [3, 4]⟩, ⟨1, 9, [3, 4]⟩] : List Report).map .ok ++
      ([⟨1, 0, [7, 0]⟩] : List Report).map .ok ++ []) ⟨[], []⟩ = .ret ([], b, .ok f) ∧ f.data = [7] ++ pad ∧ Zeros pad ∧
      ∃ d ∈ [(⟨1, 3, .accIn⟩ : ReportDef)], d.dir = .accIn ∧ (pad.length : Int) < d.maxPayload :=
  C32_recovers _ _ ⟨by decide, by decide, by decide, ⟨⟨1, 3, .accIn⟩, by decide, rfl⟩⟩ _ (by decide) [7] (by decide) _
    ⟨2, by decide⟩ _ _

/-! ## C33 -/

/-- C33. A call delivers `frame` and leaves `rest` exactly if the results of the reads it made are reports (no error
among them) delivering `frame` in the sense of `Delivered`. For every report table. -/
theorem C33_delivered_iff (grow : Growth) (defs : List ReportDef) (rs rest : List (Except Err Report)) (buf : Slice)
    (frame : Bytes) :
    (∃ b' f, readFrame grow defs rs buf = .ret (rest, b', .ok f) ∧ f.data = frame) ↔
      ∃ used, rs = used.map .ok ++ rest ∧ Delivered defs used frame := by
  rw [readFrame, readFrameLoop_run]
  simp only [Slice.reset_data]
  constructor
  · rintro ⟨used, h1, h2⟩; exact ⟨used, h1, run_delivered h2⟩
  · rintro ⟨used, h1, h2⟩; exact ⟨used, h1, delivered_run h2⟩

/-- C33. `ReadFrame` panics for no table whose reports all have length at least one. -/
theorem C33_no_panic (grow : Growth) (defs : List ReportDef) (h : ∀ d ∈ defs, 1 ≤ d.len)
    (rs : List (Except Err Report)) (buf : Slice) : readFrame grow defs rs buf ≠ .panic := by
  rw [readFrame]
  generalize buf.reset = b
  induction rs generalizing b with
  | nil => simp [readFrameLoop]
  | cons x rs ih =>
    cases x with
    | error e => simp [readFrameLoop]
    | ok r =>
      rw [readFrameLoop]
      cases hf : find defs r.id.toNat with
      | none => simp
      | some d =>
        obtain ⟨pre, post, e, _⟩ := find_some.1 hf
        have := h d (by rw [e]; simp)
        simp only
        rw [if_neg (by simp only [ReportDef.maxPayload]; omega)]
        split
        · simp
        · split
          · exact ih _
          · split
            · exact ih _
            · split
              · simp
              · exact ih _

example (grow : Growth) : readFrame grow [⟨1, 1, .accIn⟩] [.ok ⟨1, 9, []⟩, .error .eof] ⟨[9], []⟩ ≠ .panic :=
  C33_no_panic grow [⟨1, 1, .accIn⟩] (by decide) _ _

/-- An interrupted transfer, then a complete one of two reports, the second longer than its definition allows. -/
example : Delivered [⟨1, 3, .accIn⟩] [⟨1, 2, [1, 2]⟩, ⟨1, 2, [3]⟩, ⟨1, 1, [4, 5, 6]⟩] [3, 4, 5] := by
  have ha : ∀ r : Report, r.id = 1 → Accepted [⟨1, 3, .accIn⟩] r (r.data.take 2) := fun r hr =>
    .mk [] [] ⟨1, 3, .accIn⟩ rfl (by rw [hr]; rfl) (by simp) (by decide)
  refine ⟨⟨[⟨1, 2, [1, 2]⟩, ⟨1, 2, [3]⟩], _, rfl, by decide, by decide⟩, ?_, [⟨1, 2, [1, 2]⟩], _, rfl,
    .cons (by decide) (ha _ rfl) (.cons (by decide) (ha _ rfl) .nil), by decide, .inr ⟨_, rfl, by decide⟩⟩
  intro r hr
  simp only [List.mem_cons, List.not_mem_nil, or_false] at hr
  rcases hr with rfl | rfl | rfl <;> exact ⟨_, ha _ rfl⟩

/-! ## C34 -/

/-- C34. Nothing fails: all reports of the frame are handed over and no error is returned. -/
theorem C34_no_failure (defs : List ReportDef) (hg : GoodTable defs) (frame : Bytes) (hf : frame ≠ [])
    (rs : List Report) (hw : Written defs frame rs) (fails : Fails) (log : List Report)
    (h : ∀ i, i < rs.length → fails (log.length + i) = none) (fuel : Nat) (hfuel : frame.length < fuel) :
    writeFrameFor fuel defs fails log frame = some (.ret (log ++ rs, none)) := by
  obtain ⟨rs', _, _, h3, h4⟩ := written_chunks hg hf
  rw [(h4 rs).1 hw] at h ⊢
  rw [h3 fuel log fails hfuel, outcome_ok _ _ _ h]

example : writeFrameFor 10 [⟨1, 3, .accIn⟩] (fun i => if i = 4 then some .eof else none) [⟨1, 0, [9, 9]⟩] [1, 2, 3, 4, 5] =
    some (.ret ([⟨1, 0, [9, 9]⟩] ++ [⟨1, 2, [1, 2]⟩, ⟨1, 3, [3, 4]⟩, ⟨1, 1, [5, 0]⟩], none)) :=
  C34_no_failure [⟨1, 3, .accIn⟩] ⟨by decide, by decide, by decide, ⟨⟨1, 3, .accIn⟩, by decide, rfl⟩⟩ [1, 2, 3, 4, 5]
    (by decide) _ ⟨6, by decide⟩ _ [⟨1, 0, [9, 9]⟩] (by decide) 10 (by decide)

/-- C34. If the report with index `k` is the first the writer refuses, its error is returned and exactly the first
`k + 1` reports were handed over. -/
theorem C34_failure (defs : List ReportDef) (hg : GoodTable defs) (frame : Bytes) (hf : frame ≠ [])
    (rs : List Report) (hw : Written defs frame rs) (fails : Fails) (log : List Report) (k : Nat) (e : Err)
    (hk : k < rs.length) (h : ∀ i, i < k → fails (log.length + i) = none) (he : fails (log.length + k) = some e)
    (fuel : Nat) (hfuel : frame.length < fuel) :
    writeFrameFor fuel defs fails log frame = some (.ret (log ++ rs.take (k + 1), some e)) := by
  obtain ⟨rs', _, _, h3, h4⟩ := written_chunks hg hf
  rw [(h4 rs).1 hw] at hk ⊢
  rw [h3 fuel log fails hfuel, outcome_fail _ _ _ k e hk h he]

/-- C34, the raw writer: whatever the device answers other than "all written, no error", the error (or a short-write
error) comes back; an answer beyond what was offered is a panic of the buffer. -/
theorem C34_raw_writer (r : Report) (m : Nat) (err : Option Err) (hm : m ≤ r.data.length + 2) :
    ∃ res, rawWriteReport r (m, err) = .ret res ∧ (res = none ↔ err = none ∧ m = r.data.length + 2) ∧
      ∀ e, err = some e → res = some e := by
  have hl : (rawReportBytes r).length = r.data.length + 2 := by simp [rawReportBytes]
  cases err with
  | some e => exact ⟨some e, by simp [rawWriteReport, hl]; omega, by simp, by simp⟩
  | none =>
    by_cases h : m = r.data.length + 2
    · exact ⟨none, by simp [rawWriteReport, hl, h], by simp [h], by simp⟩
    · exact ⟨some .shortWrite, by simp [rawWriteReport, hl, h]; omega, by simp [h], by simp⟩

/-- A write that takes less than it was given, without an error. -/
example : ∃ res, rawWriteReport ⟨1, 0, [5, 6]⟩ (3, none) = .ret res ∧ (res = none ↔ (none : Option Err) = none ∧ 3 = 4) ∧
    ∀ e, none = some e → res = some e :=
  C34_raw_writer ⟨1, 0, [5, 6]⟩ 3 none (by decide)

/-- Failure of the second of three reports. -/
example : writeFrameFor 10 [⟨1, 3, .accIn⟩] (fun i => if i = 1 then some .eof else none) [] [1, 2, 3, 4, 5] =
    some (.ret ([⟨1, 2, [1, 2]⟩, ⟨1, 3, [3, 4]⟩], some .eof)) :=
  C34_failure [⟨1, 3, .accIn⟩] ⟨by decide, by decide, by decide, ⟨⟨1, 3, .accIn⟩, by decide, rfl⟩⟩ [1, 2, 3, 4, 5]
    (by decide) [⟨1, 2, [1, 2]⟩, ⟨1, 3, [3, 4]⟩, ⟨1, 1, [5, 0]⟩] ⟨6, by decide⟩ _ [] 1 .eof (by decide) (by decide)
    (by decide) 10 (by decide)

/-! ## C35 -/

/-- C35. Raw round trip. -/
theorem C35_raw_roundtrip (r : Report) (h1 : 1 ≤ r.data.length) (h2 : r.data.length ≤ 1022) :
    rawReadReport ⟨rawReportBytes r, none⟩ = .ok r := by
  obtain ⟨id, lc, data⟩ := r
  obtain ⟨d0, data, rfl⟩ : ∃ d0 ds, data = d0 :: ds := List.exists_cons_of_ne_nil (by rintro rfl; simp at h1)
  simp only [List.length_cons] at h2
  simp only [rawReadReport, rawReportBytes]
  rw [List.take_of_length_le (by simp [maxRawSize]; omega)]
  rfl

/-- C35. A read gives a report exactly if it did not fail and brought at least three bytes, and then the report's
fields are the bytes read. -/
theorem C35_raw_read_iff (rd : ReadRes) (h : rd.data.length ≤ 1024) (r : Report) :
    rawReadReport rd = .ok r ↔ rd.err = none ∧ 3 ≤ rd.data.length ∧ rd.data = r.id :: r.linkControl :: r.data := by
  obtain ⟨data, err⟩ := rd
  simp only [rawReadReport]
  rw [List.take_of_length_le h]
  cases err with
  | some e => simp
  | none =>
    obtain ⟨id, lc, d⟩ := r
    match data with
    | [] => simp
    | [_] => simp
    | [_, _] => simp
    | a :: b :: c :: rest =>
      simp only [Except.ok.injEq, Report.mk.injEq, true_and, List.length_cons, List.cons.injEq]
      constructor
      · rintro ⟨rfl, rfl, rfl⟩; exact ⟨by omega, rfl, rfl, rfl⟩
      · rintro ⟨_, rfl, rfl, h⟩; exact ⟨rfl, rfl, h⟩

example : rawReadReport ⟨[5, 2, 1, 2], none⟩ = .ok ⟨5, 2, [1, 2]⟩ :=
  (C35_raw_read_iff ⟨[5, 2, 1, 2], none⟩ (by decide) ⟨5, 2, [1, 2]⟩).2 ⟨rfl, by decide, rfl⟩

/-- C35. A short read is an error. -/
theorem C35_short_read (rd : ReadRes) (h : rd.data.length < 3) : ∃ e, rawReadReport rd = .error e := by
  cases he : rawReadReport rd with
  | error e => exact ⟨e, rfl⟩
  | ok r =>
    have := ((C35_raw_read_iff rd (by omega) r).1 he).2.1
    omega

example : rawReadReport ⟨rawReportBytes ⟨5, 2, [1, 2]⟩, none⟩ = .ok ⟨5, 2, [1, 2]⟩ :=
  C35_raw_roundtrip _ (by decide) (by decide)
example : ∃ e, rawReadReport ⟨[1, 2], none⟩ = .error e := C35_short_read _ (by decide)

/-! ## C36 -/

/-- C36. Whatever the writer does, `WriteFrame` returns (without panic), having handed over at most as many reports as
the frame has bytes, if every device-to-host report can carry a byte. `frame.length + 1` rounds suffice. -/
theorem C36_terminates (defs : List ReportDef) (h : ∀ d ∈ defs, d.dir = .accIn → 1 ≤ d.maxPayload) (frame : Bytes)
    (fails : Fails) (log : List Report) (fuel : Nat) (hfuel : frame.length < fuel) :
    ∃ sent err, writeFrameFor fuel defs fails log frame = some (.ret (log ++ sent, err)) ∧
      sent.length ≤ frame.length := by
  obtain ⟨fuel, rfl⟩ : ∃ f, fuel = f + 1 := ⟨fuel - 1, by omega⟩
  by_cases h0 : frame.length = 0
  · exact ⟨[], none, by rw [writeFrameFor, writeFrameLoop, if_pos h0, List.append_nil], by simp⟩
  · by_cases hin : ∃ d ∈ defs, d.dir = .accIn
    · obtain ⟨rs, _, h2, h3⟩ := writeFrameLoop_spec defs
        (fun d hd hdir => by have := h d hd hdir; simp only [ReportDef.maxPayload] at this; omega) hin frame frame.length 0
        (by simp) h0
      rw [writeFrameFor, h3 _ _ _ hfuel]
      suffices ∀ rs log, ∃ sent err, outcome fails log rs = (log ++ sent, err) ∧ sent.length ≤ rs.length by
        obtain ⟨sent, err, e1, e2⟩ := this rs log
        exact ⟨sent, err, by rw [e1], by omega⟩
      intro rs
      induction rs with
      | nil => intro log; exact ⟨[], none, by simp [outcome], by simp⟩
      | cons r rs ih =>
        intro log
        rw [outcome]
        cases fails log.length with
        | some e => exact ⟨[r], some e, rfl, by simp⟩
        | none =>
          obtain ⟨sent, err, e1, e2⟩ := ih (log ++ [r])
          exact ⟨r :: sent, err, by simp [e1], by simp; omega⟩
    · refine ⟨[], some Err.noReport, ?_, by simp⟩
      rw [writeFrameFor, writeFrameLoop, if_neg h0, pick_none.2 (by simpa using hin), List.append_nil]

/-- C36, no progress: if the report chosen for the frame carries nothing and the writer never fails, `WriteFrame` does
not return, however long one waits. -/
theorem C36_no_progress (defs : List ReportDef) (frame : Bytes) (hf : frame ≠ []) (d : ReportDef)
    (hp : pick defs frame.length .accIn = some d) (hd : d.maxPayload = 0) (fuel : Nat) :
    writeFrameFor fuel defs (fun _ => none) [] frame = none := by
  have h0 : frame.length ≠ 0 := by simpa using hf
  rw [writeFrameFor]
  generalize ([] : List Report) = log
  induction fuel generalizing log with
  | zero => rfl
  | succ fuel ih =>
    rw [writeFrameLoop, if_neg h0, hp]
    simp only [hd]
    rw [if_neg (by decide)]
    have : frame.length > (0 : Int).toNat := by simp; omega
    simp only [if_pos this]
    exact ih _

/-- C36, no progress, said of the table only: when it has device-to-host reports and none of them carries anything,
`WriteFrame` of a non-empty frame does not return. -/
theorem C36_stuck (defs : List ReportDef) (h : ∃ d ∈ defs, d.dir = .accIn)
    (h0 : ∀ d ∈ defs, d.dir = .accIn → d.maxPayload = 0) (frame : Bytes) (hf : frame ≠ []) (fuel : Nat) :
    writeFrameFor fuel defs (fun _ => none) [] frame = none := by
  cases hp : pick defs frame.length .accIn with
  | none =>
    obtain ⟨d, hd, hdir⟩ := h
    exact absurd hdir (pick_none.1 hp d hd)
  | some d =>
    obtain ⟨hd, hdir⟩ := pick_some hp
    exact C36_no_progress defs frame hf d hp (h0 d hd hdir) fuel

example : ∀ fuel, writeFrameFor fuel [⟨3, 9, .accOut⟩, ⟨1, 1, .accIn⟩] (fun _ => none) [] [1, 2] = none :=
  C36_stuck _ ⟨⟨1, 1, .accIn⟩, by decide, rfl⟩ (by decide) _ (by decide)
example : ∃ sent err, writeFrameFor 3 legacyReportDefs (fun _ => none) [] [1, 2] = some (.ret ([] ++ sent, err)) ∧
    sent.length ≤ 2 := C36_terminates _ (by decide) _ _ _ _ (by decide)
example : ∀ fuel, writeFrameFor fuel [⟨1, 1, .accIn⟩] (fun _ => none) [] [1, 2] = none :=
  C36_no_progress _ [1, 2] (by decide) ⟨1, 1, .accIn⟩ (by decide) (by decide)

/-! ## C37 -/

theorem filler_zeros {z : Bytes} (h : Zeros z) : Filler z := fun hm => by have := h _ hm; revert this; decide

theorem stream_pad {ps : List Bytes} {w z : Bytes} (h : Stream ps w) (hz : Zeros z) : Stream ps (w ++ z) := by
  induction h with
  | done j hj =>
    refine .done _ ?_
    intro hm
    rcases List.mem_append.1 hm with hm | hm
    · exact hj hm
    · exact filler_zeros hz hm
  | more j w rest p ps hj hw _ ih =>
    rw [List.append_assoc]
    exact .more j w _ p ps hj hw ih

/-- The receiving side: for each of the counts in `ns`, read a frame and call the packet reader that often on it. -/
def receive (grow : Growth) (defs : List ReportDef) :
    List Nat → List ReadRes → Slice → Out (List (Except Err (List (Except Err Bytes))))
  | [], _, _ => .ret []
  | n :: ns, reads, buf =>
    match readFrame grow defs (reads.map rawReadReport) buf with
    | .panic => .panic
    | .ret (rest, buf, .error e) =>
      receive grow defs ns (reads.drop (reads.length - rest.length)) buf >>= fun more => .ret (.error e :: more)
    | .ret (rest, buf, .ok f) =>
      callReader n f >>= fun packets =>
      receive grow defs ns (reads.drop (reads.length - rest.length)) buf >>= fun more => .ret (.ok packets :: more)

/-- C37. Packets, in frames of at least one, written by the packet writer, sent by the HID encoder and the raw writer,
each `Write` arriving as one `Read`: the receiving side gets frame after frame exactly the packets, in order, and then
the end of the frame. For every usable table whose reports fit the raw reader's buffer, every state of the
decoder's buffer and every growth policy. Missing: payloads of 256 bytes, which the packet writer spoils (`C01_fails_at_256`). -/
theorem C37_end_to_end_partial (grow : Growth) (defs : List ReportDef) (hg : GoodTable defs)
    (hmax : ∀ d ∈ defs, d.maxPayload ≤ 1022) (frames : List (List Bytes × List Report))
    (h : ∀ p ∈ frames, p.1 ≠ [] ∧ (∀ q ∈ p.1, 1 ≤ q.length ∧ q.length ≤ 65535 ∧ q.length ≠ 256) ∧
      Written defs (writePackets newPacketWriter p.1) p.2) (buf : Slice) :
    receive grow defs (frames.map fun p => p.1.length + 1)
      (frames.flatMap fun p => p.2.map fun r => (⟨rawReportBytes r, none⟩ : ReadRes)) buf =
      .ret (frames.map fun p => .ok (p.1.map .ok ++ [.error .eof])) := by
  induction frames generalizing buf with
  | nil => rfl
  | cons p frames ih =>
    obtain ⟨ps, rs⟩ := p
    obtain ⟨h1, h2, h3⟩ := h (ps, rs) (by simp)
    simp only at h1 h2 h3
    have hst := C02_written_is_stream ps h2
    have hne : writePackets newPacketWriter ps ≠ [] := by
      intro hn
      rw [hn] at hst
      generalize hw : ([] : Bytes) = w at hst
      cases hst with
      | done => exact h1 rfl
      | more j w rest p ps' hj hw' _ =>
        obtain ⟨_, _, _, e, _⟩ := hw'
        rw [e] at hw
        simp at hw
    have hraw : (rs.map fun r => (⟨rawReportBytes r, none⟩ : ReadRes)).map rawReadReport = rs.map .ok := by
      rw [List.map_map]
      apply List.map_congr_left
      intro r hr
      obtain ⟨d, d1, _, _, d4⟩ := C31_fits_descriptor defs hg _ hne rs h3 r hr
      have := hg.carries d d1
      have := hmax d d1
      have hm : d.maxPayload = d.len - 1 := rfl
      exact C35_raw_roundtrip r (by omega) (by omega)
    simp only [List.map_cons, List.flatMap_cons]
    rw [receive, List.map_append, hraw]
    obtain ⟨buf', f, pad, e1, e2, e3, _⟩ := C29_frame_roundtrip grow defs hg _ hne rs h3
      ((frames.flatMap fun p => p.2.map fun r => (⟨rawReportBytes r, none⟩ : ReadRes)).map rawReadReport) buf
    rw [e1]
    obtain ⟨fd, fs⟩ := f
    simp only at e2 ⊢
    subst e2
    rw [C02_stream_in_order ps _ fs (stream_pad hst e3) 1]
    simp only [Out.bind_ret]
    have hdrop : ∀ (a b : List ReadRes), (a ++ b).drop ((a ++ b).length - (b.map rawReadReport).length) = b := by
      intro a b
      rw [List.length_append, List.length_map, Nat.add_sub_cancel, List.drop_left]
    rw [hdrop, ih (fun q hq => h q (by simp [hq]))]
    rfl

example (grow : Growth) : receive grow defaultReportDefs [2] [⟨rawReportBytes ⟨1, 0, [0x55, 1, 7, 248, 0, 0, 0, 0, 0, 0, 0]⟩, none⟩] ⟨[9], []⟩ =
    .ret [.ok [.ok [7], .error .eof]] :=
  C37_end_to_end_partial grow defaultReportDefs goodTable_default (by decide)
    [([[7]], [⟨1, 0, [0x55, 1, 7, 248, 0, 0, 0, 0, 0, 0, 0]⟩])] (by
      intro p hp
      rw [List.mem_singleton.1 hp]
      exact ⟨by decide, by decide, 5, by decide⟩) ⟨[9], []⟩

/-- Both shipped tables qualify. -/
theorem C37_default_partial (grow : Growth) (frames : List (List Bytes × List Report))
    (h : ∀ p ∈ frames, p.1 ≠ [] ∧ (∀ q ∈ p.1, 1 ≤ q.length ∧ q.length ≤ 65535 ∧ q.length ≠ 256) ∧
      Written defaultReportDefs (writePackets newPacketWriter p.1) p.2) (buf : Slice) :
    receive grow defaultReportDefs (frames.map fun p => p.1.length + 1)
      (frames.flatMap fun p => p.2.map fun r => (⟨rawReportBytes r, none⟩ : ReadRes)) buf =
      .ret (frames.map fun p => .ok (p.1.map .ok ++ [.error .eof])) :=
  C37_end_to_end_partial grow _ goodTable_default (by decide) frames h buf

theorem C37_legacy_partial (grow : Growth) (frames : List (List Bytes × List Report))
    (h : ∀ p ∈ frames, p.1 ≠ [] ∧ (∀ q ∈ p.1, 1 ≤ q.length ∧ q.length ≤ 65535 ∧ q.length ≠ 256) ∧
      Written legacyReportDefs (writePackets newPacketWriter p.1) p.2) (buf : Slice) :
    receive grow legacyReportDefs (frames.map fun p => p.1.length + 1)
      (frames.flatMap fun p => p.2.map fun r => (⟨rawReportBytes r, none⟩ : ReadRes)) buf =
      .ret (frames.map fun p => .ok (p.1.map .ok ++ [.error .eof])) :=
  C37_end_to_end_partial grow _ goodTable_legacy (by decide) frames h buf

example (grow : Growth) : receive grow legacyReportDefs [2] [⟨rawReportBytes ⟨1, 0, [0x55, 1, 7, 248]⟩, none⟩] ⟨[9], []⟩ =
    .ret [.ok [.ok [7], .error .eof]] :=
  C37_legacy_partial grow [([[7]], [⟨1, 0, [0x55, 1, 7, 248]⟩])] (by
      intro p hp
      rw [List.mem_singleton.1 hp]
      exact ⟨by decide, by decide, 5, by decide⟩) ⟨[9], []⟩

/-- Two packets in one frame over the default table. -/
example : ∃ rs, Written defaultReportDefs (writePackets newPacketWriter [[1, 2, 3], [4]]) rs ∧
    receive (fun _ _ => 5) defaultReportDefs [3] (rs.map fun r => ⟨rawReportBytes r, none⟩) ⟨[], []⟩ =
      .ret [.ok [.ok [1, 2, 3], .ok [4], .error .eof]] := by
  obtain ⟨rs, hw, _⟩ := C29_written defaultReportDefs goodTable_default (writePackets newPacketWriter [[1, 2, 3], [4]])
    (by decide)
  refine ⟨rs, hw, ?_⟩
  have := C37_default_partial (fun _ _ => 5) [([[1, 2, 3], [4]], rs)] (by simpa using hw) ⟨[], []⟩
  simpa using this

end Props
