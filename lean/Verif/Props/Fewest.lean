import Verif.Spec.Fewest
import Verif.Props.Hid

/-! # Property C118: how many reports a frame takes -/

namespace Props
open Go Spec Ipod Ipod.Hid

/-! ## C118 -/

theorem lastIn_unique {defs : List ReportDef} {d e : ReportDef} (hd : LastIn defs d) (he : LastIn defs e) : d = e := by
  obtain ⟨p, q, h1, h2, h3⟩ := hd
  obtain ⟨p', q', h1', h2', h3'⟩ := he
  rw [h1'] at h1
  rcases List.append_eq_append_iff.1 h1 with ⟨a, ha, hb⟩ | ⟨a, ha, hb⟩
  · rcases a with _ | ⟨x, a⟩
    · simp only [List.nil_append, List.cons.injEq] at hb; exact hb.1.symm
    · simp only [List.cons_append, List.cons.injEq] at hb
      exact absurd h2 (h3' d (by rw [hb.2]; simp))
  · rcases a with _ | ⟨x, a⟩
    · simp only [List.nil_append, List.cons.injEq] at hb; exact hb.1
    · simp only [List.cons_append, List.cons.injEq] at hb
      exact absurd h2' (h3 e (by rw [hb.2]; simp))

/-- What `Pick` finds: something that fits, or the last when nothing does. -/
theorem pick_fits_or_last {defs : List ReportDef} {n : Int} {d : ReportDef} (h : pick defs n .accIn = some d) :
    n ≤ d.maxPayload ∨ (LastIn defs d ∧ ∀ e ∈ defs, e.dir = .accIn → e.maxPayload < n) := by
  rw [pick] at h
  rcases pickLoop_spec n .accIn defs none with ⟨pre, e, post, h1, h2, h3, _, h5⟩ | ⟨h1, ⟨pre, e, post, h2, h3, h4, h5⟩ | ⟨_, h3⟩⟩
  · rw [h5] at h; cases h; exact .inl h3
  · rw [h5] at h; cases h; exact .inr ⟨⟨pre, post, h2, h3, h4⟩, h1⟩
  · rw [h3] at h; cases h

theorem largest_size {defs : List ReportDef} (hg : GoodTable defs) {d : ReportDef} (hd : LastIn defs d) : 1 ≤ d.maxPayload := by
  obtain ⟨p, q, h1, _, _⟩ := hd
  have := hg.carries d (by rw [h1]; simp)
  simp only [ReportDef.maxPayload]
  omega

theorem ceil_step (n M : Nat) (hM : 1 ≤ M) : (M + n + M - 1) / M = (n + M - 1) / M + 1 := by
  rw [show M + n + M - 1 = (n + M - 1) + M by omega, Nat.add_div_right _ hM]

theorem chunks_count {defs : List ReportDef} (hg : GoodTable defs) {d : ReportDef} (hl : LastIn defs d)
    (hm : ∀ e ∈ defs, e.dir = .accIn → e.maxPayload ≤ d.maxPayload) {first : Bool} {data : Bytes} {rs : List Report}
    (h : Chunks defs first data rs) : rs.length = (data.length + d.maxPayload.toNat - 1) / d.maxPayload.toNat := by
  have hM := largest_size hg hl
  induction h with
  | @last first rest e h1 h2 h3 =>
    have he := pick_some h1
    have := hm e he.1 he.2
    have hpos := List.length_pos_iff.2 h2
    rw [List.length_singleton]
    symm
    rw [Nat.div_eq_iff (by omega)]
    omega
  | @more first part rest e rs h1 h2 h3 h4 h5 ih =>
    have hpos := List.length_pos_iff.2 h4
    rcases pick_fits_or_last h1 with h | ⟨h, _⟩
    · rw [List.length_append] at h; omega
    · rw [lastIn_unique h hl] at h2
      rw [List.length_cons, ih, List.length_append, show part.length = d.maxPayload.toNat by omega, ceil_step _ _ (by omega)]

/-- C118. When no report to the host is larger than the last of the table: the number of reports of a frame. -/
theorem C118_count (defs : List ReportDef) (hg : GoodTable defs) (d : ReportDef) (hl : LastIn defs d)
    (hm : ∀ e ∈ defs, e.dir = .accIn → e.maxPayload ≤ d.maxPayload) (frame : Bytes) (hf : frame ≠ []) (rs : List Report)
    (hw : Written defs frame rs) :
    rs.length = (frame.length + d.maxPayload.toNat - 1) / d.maxPayload.toNat ∧ CarriedIn defs frame rs :=
  have hc := written_is_chunks hg hf hw
  have hd := hc.data hg
  ⟨chunks_count hg hl hm hc, hd.1, by obtain ⟨pad, h, _⟩ := hd.2; exact ⟨pad, h⟩⟩

theorem carried_le {rs : List Report} {M : Nat} (h : ∀ r ∈ rs, r.data.length ≤ M) : (dataOf rs).length ≤ M * rs.length := by
  induction rs with
  | nil => simp [dataOf]
  | cons r rs ih =>
    have := ih fun r hr => h r (.tail _ hr)
    have := h r (.head _)
    rw [show dataOf (r :: rs) = r.data ++ dataOf rs from rfl, List.length_append, List.length_cons, Nat.mul_succ]
    omega

theorem exists_last {defs : List ReportDef} (h : ∃ d ∈ defs, d.dir = .accIn) : ∃ d, LastIn defs d := by
  induction defs with
  | nil => obtain ⟨d, hd, _⟩ := h; cases hd
  | cons x defs ih =>
    by_cases hx : ∃ d ∈ defs, d.dir = .accIn
    · obtain ⟨d, p, q, h1, h2, h3⟩ := ih hx
      exact ⟨d, x :: p, q, by rw [h1]; rfl, h2, h3⟩
    · obtain ⟨d, hd, hd'⟩ := h
      rcases List.mem_cons.1 hd with rfl | hd
      · exact ⟨d, [], defs, rfl, hd', fun e he h => hx ⟨e, he, h⟩⟩
      · exact absurd ⟨d, hd, hd'⟩ hx

theorem exists_largest {defs : List ReportDef} (h : ∃ d ∈ defs, d.dir = .accIn) :
    ∃ d ∈ defs, d.dir = .accIn ∧ ∀ e ∈ defs, e.dir = .accIn → e.maxPayload ≤ d.maxPayload := by
  induction defs with
  | nil => obtain ⟨d, hd, _⟩ := h; cases hd
  | cons x defs ih =>
    by_cases hx : ∃ d ∈ defs, d.dir = .accIn
    · obtain ⟨d, h1, h2, h3⟩ := ih hx
      by_cases hc : x.dir = .accIn ∧ d.maxPayload < x.maxPayload
      · refine ⟨x, .head _, hc.1, fun e he hd => ?_⟩
        rcases List.mem_cons.1 he with rfl | he
        · exact Int.le_refl _
        · have := h3 e he hd; omega
      · refine ⟨d, .tail _ h1, h2, fun e he hd => ?_⟩
        rcases List.mem_cons.1 he with rfl | he
        · rcases Int.lt_or_le d.maxPayload e.maxPayload with h | h
          · exact absurd ⟨hd, h⟩ hc
          · exact h
        · exact h3 e he hd
    · obtain ⟨d, hd, hd'⟩ := h
      rcases List.mem_cons.1 hd with rfl | hd
      · refine ⟨d, .head _, hd', fun e he he' => ?_⟩
        rcases List.mem_cons.1 he with rfl | he
        · exact Int.le_refl _
        · exact absurd ⟨e, he, he'⟩ hx
      · exact absurd ⟨d, hd, hd'⟩ hx

/-- C118, exactly for which tables no frame could be carried by fewer reports. -/
theorem C118_fewest_iff (defs : List ReportDef) (hg : GoodTable defs) :
    (∀ frame rs rs', frame ≠ [] → Written defs frame rs → CarriedIn defs frame rs' → rs.length ≤ rs'.length) ↔ LargestLast defs := by
  constructor
  · intro h
    obtain ⟨l, hl⟩ := exists_last hg.hasIn
    obtain ⟨m, m1, m2, m3⟩ := exists_largest hg.hasIn
    refine ⟨l, hl, fun e he hd => ?_⟩
    rcases Int.lt_or_le l.maxPayload e.maxPayload with hlt | hle
    · exfalso
      have hml := m3 e he hd
      have hM : 1 ≤ l.maxPayload := largest_size hg hl
      have hframe : List.replicate (2 * m.maxPayload.toNat) (0 : UInt8) ≠ [] := by
        intro h0
        have := congrArg List.length h0
        simp only [List.length_replicate, List.length_nil] at this
        omega
      obtain ⟨rs, hc, _, _, hu⟩ := written_chunks hg hframe
      have hfill : ∀ lc, FilledBy m ⟨byteOfInt m.id, lc, List.replicate m.maxPayload.toNat 0⟩ := fun lc => by
        refine ⟨m2, ?_, by simp only [List.length_replicate]; omega⟩
        obtain ⟨h0, h1⟩ := hg.isByte m m1
        exact byteOfInt_toNat h0 h1
      have := h _ rs [⟨byteOfInt m.id, 2, List.replicate m.maxPayload.toNat 0⟩, ⟨byteOfInt m.id, 1, List.replicate m.maxPayload.toNat 0⟩]
        hframe ((hu rs).2 rfl) ⟨fun r hr => by
          simp only [List.mem_cons, List.not_mem_nil, or_false] at hr
          rcases hr with rfl | rfl
          · exact ⟨m, m1, hfill _⟩
          · exact ⟨m, m1, hfill _⟩,
          [], by simp [dataOf, Nat.two_mul]⟩
      rw [List.length_cons, List.length_singleton] at this
      -- a chunk while more than a largest report is left takes the last report, which leaves something
      have step : ∀ {first data rs}, Chunks defs first data rs → m.maxPayload < data.length →
          ∃ rest r rs0, rs = r :: rs0 ∧ Chunks defs false rest rs0 ∧ (rest.length : Int) = data.length - l.maxPayload := by
        intro first data rs hc hn
        cases hc with
        | @last _ _ d h1 h2 h3 =>
          have := pick_some h1
          have := m3 d this.1 this.2
          omega
        | @more _ part rest d rs h1 h2 h3 h4 h5 =>
          rcases pick_fits_or_last h1 with hh | ⟨hh, _⟩
          · have := pick_some h1
            have := m3 d this.1 this.2
            omega
          · refine ⟨rest, _, rs, rfl, h5, ?_⟩
            rw [lastIn_unique hh hl] at h2
            rw [List.length_append]
            omega
      obtain ⟨rest, r, rs0, rfl, hc', hr⟩ := step hc (by simp only [List.length_replicate]; omega)
      simp only [List.length_replicate] at hr
      obtain ⟨rest', r', rs1, rfl, hc'', _⟩ := step hc' (by omega)
      have := List.length_pos_iff.2 hc''.ne_nil
      simp only [List.length_cons] at *
      omega
    · exact hle
  · rintro ⟨d, hl, hm⟩ frame rs rs' hf hw ⟨h1, more, h2⟩
    have hM := largest_size hg hl
    rw [(C118_count defs hg d hl hm frame hf rs hw).1]
    have hle : (dataOf rs').length ≤ d.maxPayload.toNat * rs'.length := carried_le fun r hr => by
      obtain ⟨e, e1, e2, _, e3⟩ := h1 r hr
      have := hm e e1 e2
      omega
    rw [h2, List.length_append] at hle
    rw [Nat.div_le_iff_le_mul (by omega), Nat.mul_comm]
    omega

theorem default_last : LastIn defaultReportDefs ⟨9, 63, .accIn⟩ := ⟨defaultReportDefs.dropLast, [], by decide, rfl, by simp⟩

theorem legacy_last : LastIn legacyReportDefs ⟨0x0C, 767, .accIn⟩ :=
  ⟨legacyReportDefs.take 11, legacyReportDefs.drop 12, by decide, rfl, by decide⟩

/-- C118, the shipped tables: no frame could be carried by fewer reports, and the number of reports of each. -/
theorem C118_tables (frame : Bytes) (hf : frame ≠ []) (rs : List Report) :
    (Written defaultReportDefs frame rs → rs.length = (frame.length + 61) / 62 ∧
      ∀ rs', CarriedIn defaultReportDefs frame rs' → rs.length ≤ rs'.length) ∧
    (Written legacyReportDefs frame rs → rs.length = (frame.length + 765) / 766 ∧
      ∀ rs', CarriedIn legacyReportDefs frame rs' → rs.length ≤ rs'.length) := by
  have md : ∀ e ∈ defaultReportDefs, e.dir = .accIn → e.maxPayload ≤ (⟨9, 63, .accIn⟩ : ReportDef).maxPayload := by decide
  have ml : ∀ e ∈ legacyReportDefs, e.dir = .accIn → e.maxPayload ≤ (⟨0x0C, 767, .accIn⟩ : ReportDef).maxPayload := by decide
  refine ⟨fun hw => ⟨?_, fun rs' hr => ?_⟩, fun hw => ⟨?_, fun rs' hr => ?_⟩⟩
  · exact (C118_count _ goodTable_default _ default_last md frame hf rs hw).1
  · exact (C118_fewest_iff _ goodTable_default).2 ⟨_, default_last, md⟩ frame rs rs' hf hw hr
  · exact (C118_count _ goodTable_legacy _ legacy_last ml frame hf rs hw).1
  · exact (C118_fewest_iff _ goodTable_legacy).2 ⟨_, legacy_last, ml⟩ frame rs rs' hf hw hr

/-- C118, against fewest bytes: with either table there is a frame that as many reports of the table could carry in fewer bytes. -/
theorem C118_not_least : (∃ frame rs rs', frame ≠ [] ∧ Written defaultReportDefs frame rs ∧ CarriedIn defaultReportDefs frame rs' ∧
      rs'.length = rs.length ∧ (dataOf rs').length < (dataOf rs).length) ∧
    ∃ frame rs rs', frame ≠ [] ∧ Written legacyReportDefs frame rs ∧ CarriedIn legacyReportDefs frame rs' ∧
      rs'.length = rs.length ∧ (dataOf rs').length < (dataOf rs).length := by
  constructor
  · refine ⟨List.replicate 63 7, [⟨9, 2, List.replicate 62 7⟩, ⟨1, 1, 7 :: List.replicate 10 0⟩],
      [⟨9, 2, List.replicate 62 7⟩, ⟨5, 1, 7 :: List.replicate 6 0⟩], by simp, ⟨64, by decide +kernel⟩, ⟨?_, List.replicate 6 0, by decide +kernel⟩,
      rfl, by decide +kernel⟩
    intro r hr
    simp only [List.mem_cons, List.not_mem_nil, or_false] at hr
    rcases hr with rfl | rfl
    · exact ⟨⟨9, 63, .accIn⟩, by decide, rfl, rfl, by simp [ReportDef.maxPayload]⟩
    · exact ⟨⟨5, 8, .accIn⟩, by decide, rfl, rfl, by simp [ReportDef.maxPayload]⟩
  · refine ⟨List.replicate 767 7, [⟨0x0C, 2, List.replicate 766 7⟩, ⟨1, 1, [7, 0, 0, 0]⟩],
      [⟨0x0B, 2, List.replicate 512 7⟩, ⟨9, 1, List.replicate 255 7 ++ [0]⟩], List.cons_ne_nil _ _, ⟨768, by decide +kernel⟩,
      ⟨?_, [0], by decide +kernel⟩, rfl, by decide +kernel⟩
    intro r hr
    simp only [List.mem_cons, List.not_mem_nil, or_false] at hr
    rcases hr with rfl | rfl
    · exact ⟨⟨0x0B, 513, .accIn⟩, by decide, rfl, rfl, by decide +kernel⟩
    · exact ⟨⟨9, 257, .accIn⟩, by decide, rfl, rfl, by decide +kernel⟩

/-- Hypotheses of `C118_count`: a table that is not ordered. -/
example : ([⟨1, 2, [1, 2, 3]⟩, ⟨1, 3, [4, 5, 6]⟩, ⟨2, 1, [7, 0]⟩] : List Report).length = (7 + 3 - 1) / 3 ∧ CarriedIn
    [⟨2, 3, .accIn⟩, ⟨3, 9, .accOut⟩, ⟨1, 4, .accIn⟩, ⟨4, 9, .accOut⟩] [1, 2, 3, 4, 5, 6, 7]
    [⟨1, 2, [1, 2, 3]⟩, ⟨1, 3, [4, 5, 6]⟩, ⟨2, 1, [7, 0]⟩] :=
  C118_count _ ⟨by decide, by decide, by decide, ⟨⟨1, 4, .accIn⟩, by decide, rfl⟩⟩ ⟨1, 4, .accIn⟩
    ⟨[⟨2, 3, .accIn⟩, ⟨3, 9, .accOut⟩], [⟨4, 9, .accOut⟩], rfl, rfl, by decide⟩ (by decide) [1, 2, 3, 4, 5, 6, 7] (by decide)
    [⟨1, 2, [1, 2, 3]⟩, ⟨1, 3, [4, 5, 6]⟩, ⟨2, 1, [7, 0]⟩] ⟨8, by decide +kernel⟩

/-- `C118_fewest_iff` the other way: the larger report comes first in the table, a frame of four bytes takes more than two reports. -/
example : ¬ ∀ frame rs rs', frame ≠ [] → Written [⟨1, 3, .accIn⟩, ⟨2, 2, .accIn⟩] frame rs →
    CarriedIn [⟨1, 3, .accIn⟩, ⟨2, 2, .accIn⟩] frame rs' → rs.length ≤ rs'.length := by
  rw [C118_fewest_iff _ ⟨by decide, by decide, by decide, ⟨⟨1, 3, .accIn⟩, by decide, rfl⟩⟩]
  rintro ⟨d, h1, h2⟩
  have : d = ⟨2, 2, .accIn⟩ := lastIn_unique h1 ⟨[⟨1, 3, .accIn⟩], [], rfl, rfl, by simp⟩
  subst this
  exact absurd (h2 ⟨1, 3, .accIn⟩ (by simp) rfl) (by decide)

/-- Hypotheses of `C118_tables`. -/
example : ([⟨9, 2, List.replicate 62 7⟩, ⟨1, 1, 7 :: List.replicate 10 0⟩] : List Report).length = (63 + 61) / 62 :=
  ((C118_tables (List.replicate 63 7) (by simp) _).1 ⟨64, by decide +kernel⟩).1

end Props
