import Verif.Spec.Hid

namespace Ipod.Hid
open Go Spec

/-! ### pick and find -/

/-- `pick` takes the first fitting definition of the direction, else the last of the direction. -/
theorem pickLoop_spec (n : Int) (dir : Dir) (defs : List ReportDef) (d0 : Option ReportDef) :
    (∃ pre d post, defs = pre ++ d :: post ∧ d.dir = dir ∧ n ≤ d.maxPayload ∧
      (∀ p ∈ pre, p.dir = dir → p.maxPayload < n) ∧ pickLoop n dir defs d0 = some d) ∨
    ((∀ p ∈ defs, p.dir = dir → p.maxPayload < n) ∧
      ((∃ pre d post, defs = pre ++ d :: post ∧ d.dir = dir ∧ (∀ p ∈ post, p.dir ≠ dir) ∧
          pickLoop n dir defs d0 = some d) ∨
       ((∀ p ∈ defs, p.dir ≠ dir) ∧ pickLoop n dir defs d0 = d0))) := by
  induction defs generalizing d0 with
  | nil => right; exact ⟨by simp, .inr ⟨by simp, rfl⟩⟩
  | cons r rs ih =>
    rw [pickLoop]
    by_cases hd : r.dir = dir
    · rw [if_pos hd]
      by_cases hm : r.maxPayload ≥ n
      · rw [if_pos hm]
        left; exact ⟨[], r, rs, rfl, hd, hm, by simp, rfl⟩
      · rw [if_neg hm]
        rcases ih (some r) with ⟨pre, d, post, h1, h2, h3, h4, h5⟩ | ⟨h1, ⟨pre, d, post, h2, h3, h4, h5⟩ | ⟨h2, h3⟩⟩
        · left
          refine ⟨r :: pre, d, post, by rw [h1]; rfl, h2, h3, ?_, h5⟩
          intro p hp _
          rcases List.mem_cons.1 hp with rfl | hp
          · omega
          · exact h4 p hp ‹_›
        · right
          refine ⟨?_, .inl ⟨r :: pre, d, post, by rw [h2]; rfl, h3, h4, h5⟩⟩
          intro p hp _
          rcases List.mem_cons.1 hp with rfl | hp
          · omega
          · exact h1 p hp ‹_›
        · right
          refine ⟨?_, .inl ⟨[], r, rs, rfl, hd, h2, h3⟩⟩
          intro p hp _
          rcases List.mem_cons.1 hp with rfl | hp
          · omega
          · exact h1 p hp ‹_›
    · rw [if_neg hd]
      rcases ih d0 with ⟨pre, d, post, h1, h2, h3, h4, h5⟩ | ⟨h1, ⟨pre, d, post, h2, h3, h4, h5⟩ | ⟨h2, h3⟩⟩
      · left
        refine ⟨r :: pre, d, post, by rw [h1]; rfl, h2, h3, ?_, h5⟩
        intro p hp hpd
        rcases List.mem_cons.1 hp with rfl | hp
        · exact absurd hpd hd
        · exact h4 p hp hpd
      · right
        refine ⟨?_, .inl ⟨r :: pre, d, post, by rw [h2]; rfl, h3, h4, h5⟩⟩
        intro p hp hpd
        rcases List.mem_cons.1 hp with rfl | hp
        · exact absurd hpd hd
        · exact h1 p hp hpd
      · right
        refine ⟨?_, .inr ⟨?_, h3⟩⟩
        · intro p hp hpd
          rcases List.mem_cons.1 hp with rfl | hp
          · exact absurd hpd hd
          · exact h1 p hp hpd
        · intro p hp
          rcases List.mem_cons.1 hp with rfl | hp
          · exact hd
          · exact h2 p hp

theorem pick_none {defs : List ReportDef} {n : Int} {dir : Dir} :
    pick defs n dir = none ↔ ∀ d ∈ defs, d.dir ≠ dir := by
  rw [pick]
  rcases pickLoop_spec n dir defs none with ⟨pre, d, post, h1, h2, _, _, h5⟩ | ⟨_, ⟨pre, d, post, h2, h3, _, h5⟩ | ⟨h2, h3⟩⟩
  · rw [h5]
    simp only [reduceCtorEq, false_iff]
    intro h
    exact h d (by rw [h1]; simp) h2
  · rw [h5]
    simp only [reduceCtorEq, false_iff]
    intro h
    exact h d (by rw [h2]; simp) h3
  · rw [h3]
    simp only [true_iff]
    exact h2

theorem pick_some {defs : List ReportDef} {n : Int} {dir : Dir} {d : ReportDef} (h : pick defs n dir = some d) :
    d ∈ defs ∧ d.dir = dir := by
  rw [pick] at h
  rcases pickLoop_spec n dir defs none with ⟨pre, d', post, h1, h2, _, _, h5⟩ | ⟨_, ⟨pre, d', post, h2, h3, _, h5⟩ | ⟨h2, h3⟩⟩
  · rw [h5] at h; cases h; exact ⟨by rw [h1]; simp, h2⟩
  · rw [h5] at h; cases h; exact ⟨by rw [h2]; simp, h3⟩
  · rw [h3] at h; simp at h

theorem find_some {defs : List ReportDef} {id : Int} {d : ReportDef} :
    find defs id = some d ↔
      ∃ pre post, defs = pre ++ d :: post ∧ d.id = id ∧ ∀ p ∈ pre, p.id ≠ id := by
  rw [find, List.find?_eq_some_iff_append]
  simp only [decide_eq_true_eq, Bool.not_eq_true', decide_eq_false_iff_not]
  constructor
  · rintro ⟨h1, pre, post, h2, h3⟩; exact ⟨pre, post, h2, h1, h3⟩
  · rintro ⟨pre, post, h2, h1, h3⟩; exact ⟨h1, pre, post, h2, h3⟩

theorem find_none {defs : List ReportDef} {id : Int} : find defs id = none ↔ ∀ d ∈ defs, d.id ≠ id := by
  simp [find]

theorem byteOfInt_toNat {x : Int} (h0 : 0 ≤ x) (h1 : x < 256) : ((byteOfInt x).toNat : Int) = x := by
  simp [byteOfInt]; omega

theorem find_pick {defs : List ReportDef} (hg : GoodTable defs) {d : ReportDef} (hd : d ∈ defs) :
    find defs ((byteOfInt d.id).toNat : Int) = some d := by
  obtain ⟨h0, h1⟩ := hg.isByte d hd
  rw [byteOfInt_toNat h0 h1, find_some]
  obtain ⟨pre, post, he⟩ := List.append_of_mem hd
  refine ⟨pre, post, he, rfl, ?_⟩
  intro p hp hc
  have hn := hg.distinct
  rw [he, List.map_append, List.nodup_append] at hn
  exact hn.2.2 p.id (List.mem_map.2 ⟨p, hp, rfl⟩) d.id (by simp) hc

/-! ### the encoder -/

/-- The reports of a frame, `first` telling whether it is the beginning of the frame. -/
inductive Chunks (defs : List ReportDef) : Bool → Bytes → List Report → Prop
  | last {first rest d} : pick defs rest.length .accIn = some d → rest ≠ [] → (rest.length : Int) ≤ d.maxPayload →
      Chunks defs first rest
        [⟨byteOfInt d.id, if first then 0x00 else 0x01, rest ++ List.replicate (d.maxPayload.toNat - rest.length) 0⟩]
  | more {first part rest d rs} : pick defs (part ++ rest).length .accIn = some d →
      (part.length : Int) = d.maxPayload → part ≠ [] → rest ≠ [] → Chunks defs false rest rs →
      Chunks defs first (part ++ rest) (⟨byteOfInt d.id, if first then 0x02 else 0x03, part⟩ :: rs)

/-- Handing reports to a writer until it fails. -/
def outcome (fails : Fails) : List Report → List Report → List Report × Option Err
  | log, [] => (log, none)
  | log, r :: rs =>
    match fails log.length with
    | some e => (log ++ [r], some e)
    | none => outcome fails (log ++ [r]) rs

theorem writeFrameLoop_spec (defs : List ReportDef) (hc : ∀ d ∈ defs, d.dir = .accIn → 2 ≤ d.len)
    (hin : ∃ d ∈ defs, d.dir = .accIn) (data : Bytes) (k offset : Nat) (hk : k = (data.drop offset).length) (h0 : k ≠ 0) :
    ∃ rs, Chunks defs (offset = 0) (data.drop offset) rs ∧ rs.length ≤ k ∧
      ∀ fuel log fails, k < fuel →
        writeFrameLoop defs fails data fuel log offset k = some (.ret (outcome fails log rs)) := by
  induction k using Nat.strongRecOn generalizing offset with
  | ind k ih =>
    obtain ⟨d, hp⟩ : ∃ d, pick defs k .accIn = some d := by
      cases h : pick defs k .accIn with
      | some d => exact ⟨d, rfl⟩
      | none =>
        obtain ⟨d, h1, h2⟩ := hin
        exact absurd h2 (pick_none.1 h d h1)
    obtain ⟨hd1, hd2⟩ := pick_some hp
    have hlen := hc d hd1 hd2
    have hmax : 1 ≤ d.maxPayload := by rw [ReportDef.maxPayload]; omega
    have hnn : ¬ d.maxPayload < 0 := by omega
    have hto : (d.maxPayload.toNat : Int) = d.maxPayload := by omega
    by_cases hle : k ≤ d.maxPayload.toNat
    · refine ⟨_, .last (d := d) (by rw [← hk]; exact hp) (by intro h; rw [h] at hk; simp at hk; omega)
        (by rw [← hk]; omega), by simp; omega, ?_⟩
      intro fuel log fails hf
      obtain ⟨fuel, rfl⟩ : ∃ f, fuel = f + 1 := ⟨fuel - 1, by omega⟩
      rw [writeFrameLoop, if_neg h0, hp]
      simp only [if_neg hnn]
      have h1 : ¬ k > d.maxPayload.toNat := by omega
      simp only [if_neg h1]
      have hpart : List.take k (List.drop offset data) = List.drop offset data := by
        rw [hk]; exact List.take_length
      rw [hpart]
      have hlc : (if offset > 0 then linkControlContinue else linkControlDone) =
          if decide (offset = 0) = true then 0x00 else 0x01 := by
        by_cases h : offset = 0
        · simp [h]
        · have : offset > 0 := by omega
          simp [h, this]
      rw [hlc]
      simp only [outcome]
      cases fails log.length with
      | some e => rfl
      | none =>
        simp only
        obtain ⟨fuel, rfl⟩ : ∃ f, fuel = f + 1 := ⟨fuel - 1, by omega⟩
        rw [writeFrameLoop, if_pos (by omega)]
    · have hgt : k > d.maxPayload.toNat := by omega
      obtain ⟨rs, h1, h2, h3⟩ := ih (k - d.maxPayload.toNat) (by omega) (offset + d.maxPayload.toNat)
        (by rw [← List.drop_drop, List.length_drop, ← hk]) (by omega)
      have hsplit : data.drop offset =
          (data.drop offset).take d.maxPayload.toNat ++ data.drop (offset + d.maxPayload.toNat) := by
        rw [← List.drop_drop, List.take_append_drop]
      have hpl : ((data.drop offset).take d.maxPayload.toNat).length = d.maxPayload.toNat := by
        rw [List.length_take, ← hk]; omega
      have hch : Chunks defs (offset = 0) (data.drop offset)
          (⟨byteOfInt d.id, if decide (offset = 0) = true then 0x02 else 0x03,
            (data.drop offset).take d.maxPayload.toNat⟩ :: rs) := by
        have hfalse : decide (offset + d.maxPayload.toNat = 0) = false := by simp; omega
        rw [hfalse] at h1
        have := Chunks.more (first := decide (offset = 0)) (d := d)
          (part := (data.drop offset).take d.maxPayload.toNat) (rest := data.drop (offset + d.maxPayload.toNat))
          (by rw [← hsplit, ← hk]; exact hp) (by omega) (by intro h; rw [h] at hpl; simp at hpl; omega)
          (by
            intro h
            have := congrArg List.length hsplit
            rw [h, List.append_nil, hpl, ← hk] at this
            omega) h1
        rw [← hsplit] at this
        exact this
      refine ⟨_, hch, by simp; omega, ?_⟩
      intro fuel log fails hf
      obtain ⟨fuel, rfl⟩ : ∃ f, fuel = f + 1 := ⟨fuel - 1, by omega⟩
      rw [writeFrameLoop, if_neg h0, hp]
      simp only [if_neg hnn, if_pos hgt, hpl, Nat.sub_self, List.replicate_zero, List.append_nil]
      have hlc : (if offset = 0 then linkControlMoreToFollow else linkControlContinue ||| linkControlMoreToFollow) =
          if decide (offset = 0) = true then 0x02 else 0x03 := by
        by_cases h : offset = 0
        · simp [h]
        · simp only [h, decide_false, Bool.false_eq_true, if_false]; rfl
      rw [hlc]
      simp only [outcome]
      cases fails log.length with
      | some e => rfl
      | none =>
        simp only
        exact h3 fuel _ fails (by omega)

theorem outcome_ok (fails : Fails) (log rs : List Report)
    (h : ∀ i, i < rs.length → fails (log.length + i) = none) : outcome fails log rs = (log ++ rs, none) := by
  induction rs generalizing log with
  | nil => simp [outcome]
  | cons r rs ih =>
    rw [outcome, show fails log.length = none from h 0 (by simp)]
    simp only
    rw [ih]
    · simp
    · intro i hi
      have := h (i + 1) (by simp; omega)
      simp only [List.length_append, List.length_cons, List.length_nil]
      rw [show log.length + (0 + 1) + i = log.length + (i + 1) from by omega]
      exact this

theorem outcome_fail (fails : Fails) (log rs : List Report) (k : Nat) (e : Err) (hk : k < rs.length)
    (h : ∀ i, i < k → fails (log.length + i) = none) (he : fails (log.length + k) = some e) :
    outcome fails log rs = (log ++ rs.take (k + 1), some e) := by
  induction rs generalizing log k with
  | nil => simp at hk
  | cons r rs ih =>
    rw [outcome]
    cases k with
    | zero => rw [show fails log.length = some e from he]; simp
    | succ k =>
      rw [show fails log.length = none from h 0 (by omega)]
      simp only
      rw [ih (log ++ [r]) k (by simp at hk; omega)]
      · simp
      · intro i hi
        have := h (i + 1) (by omega)
        simp only [List.length_append, List.length_cons, List.length_nil]
        rw [show log.length + (0 + 1) + i = log.length + (i + 1) from by omega]
        exact this
      · simp only [List.length_append, List.length_cons, List.length_nil]
        rw [show log.length + (0 + 1) + k = log.length + (k + 1) from by omega]
        exact he

/-! ### properties of the reports -/

theorem Chunks.ne_nil {defs first data rs} (h : Chunks defs first data rs) : rs ≠ [] := by
  cases h <;> simp

theorem Chunks.linkSeq_false {defs data rs} (h : Chunks defs false data rs) :
    ∃ k, rs.map (·.linkControl) = List.replicate k 0x03 ++ [0x01] := by
  generalize hf : false = first at h
  induction h with
  | last => subst hf; exact ⟨0, rfl⟩
  | more _ _ _ _ _ ih =>
    subst hf
    obtain ⟨k, hk⟩ := ih rfl
    exact ⟨k + 1, by simp [hk, List.replicate_succ]⟩

theorem Chunks.linkSeq {defs data rs} (h : Chunks defs true data rs) : LinkSeq (rs.map (·.linkControl)) := by
  cases h with
  | last => exact .single
  | more _ _ _ _ h =>
    obtain ⟨k, hk⟩ := h.linkSeq_false
    simp only [List.map_cons, hk]
    exact .several k

/-- The reports are filled completely and carry the data and zeros. -/
theorem Chunks.data {defs first data rs} (hg : GoodTable defs) (h : Chunks defs first data rs) :
    (∀ r ∈ rs, ∃ d ∈ defs, FilledBy d r) ∧
    ∃ pad, dataOf rs = data ++ pad ∧ Zeros pad ∧ ∃ r ∈ rs, pad.length < r.data.length := by
  induction h with
  | last h1 h2 h3 =>
    rename_i first rest d
    obtain ⟨hd1, hd2⟩ := pick_some h1
    obtain ⟨b0, b1⟩ := hg.isByte _ hd1
    have hl : rest.length ≠ 0 := by simpa using h2
    constructor
    · intro r hr
      simp only [List.mem_cons, List.not_mem_nil, or_false] at hr
      subst hr
      refine ⟨d, hd1, hd2, byteOfInt_toNat b0 b1, ?_⟩
      simp; omega
    · refine ⟨List.replicate (d.maxPayload.toNat - rest.length) 0, by simp [dataOf], ?_, _, List.mem_cons_self .., ?_⟩
      · intro x hx; exact (List.mem_replicate.1 hx).2
      · simp; omega
  | more h1 h2 h3 h4 h5 ih =>
    rename_i first part rest d rs
    obtain ⟨hd1, hd2⟩ := pick_some h1
    obtain ⟨b0, b1⟩ := hg.isByte _ hd1
    obtain ⟨ih1, pad, ih2, ih3, r, hr, ih4⟩ := ih
    constructor
    · intro r hr
      rcases List.mem_cons.1 hr with rfl | hr
      · exact ⟨d, hd1, hd2, byteOfInt_toNat b0 b1, h2⟩
      · exact ih1 r hr
    · refine ⟨pad, ?_, ih3, r, List.mem_cons_of_mem _ hr, ih4⟩
      simp only [dataOf, List.map_cons, List.flatten_cons] at ih2 ⊢
      rw [ih2, List.append_assoc]

/-- Each report is of the definition picked for the rest of the data. -/
theorem Chunks.picked {defs first data rs} (hg : GoodTable defs) (h : Chunks defs first data rs) (i : Nat) (r : Report)
    (hr : rs[i]? = some r) :
    (dataOf (rs.take i)).length < data.length ∧
    ∃ d, pick defs ((data.length - (dataOf (rs.take i)).length : Nat) : Int) .accIn = some d ∧ d ∈ defs ∧
      FilledBy d r := by
  induction h generalizing i with
  | last h1 h2 h3 =>
    rename_i first rest d
    obtain ⟨hd1, hd2⟩ := pick_some h1
    obtain ⟨b0, b1⟩ := hg.isByte _ hd1
    have hl : rest.length ≠ 0 := by simpa using h2
    cases i with
    | succ i => simp at hr
    | zero =>
      simp only [List.getElem?_cons_zero, Option.some.injEq] at hr
      subst hr
      refine ⟨by simp [dataOf]; omega, d, by simpa [dataOf] using h1, hd1, hd2, byteOfInt_toNat b0 b1, ?_⟩
      simp; omega
  | more h1 h2 h3 h4 h5 ih =>
    rename_i first part rest d rs
    obtain ⟨hd1, hd2⟩ := pick_some h1
    obtain ⟨b0, b1⟩ := hg.isByte _ hd1
    have hl : part.length ≠ 0 := by simpa using h3
    cases i with
    | zero =>
      simp only [List.getElem?_cons_zero, Option.some.injEq] at hr
      subst hr
      refine ⟨by simp [dataOf]; omega, d, by simpa [dataOf] using h1, hd1, hd2, byteOfInt_toNat b0 b1, h2⟩
    | succ i =>
      simp only [List.getElem?_cons_succ] at hr
      obtain ⟨i1, d', i2, i3, i4⟩ := ih i hr
      have e : dataOf (List.take (i + 1) (⟨byteOfInt d.id, if first = true then 0x02 else 0x03, part⟩ :: rs)) =
          part ++ dataOf (rs.take i) := by simp [dataOf]
      rw [e]
      refine ⟨by simp; omega, d', ?_, i3, i4⟩
      rw [← i2]
      congr 2
      simp
      omega

/-! ### the decoder -/

theorem readFrameLoop_chunks {grow : Growth} {defs : List ReportDef} (hg : GoodTable defs) {first : Bool} {data : Bytes}
    {rs : List Report} (h : Chunks defs first data rs) (tail : List (Except Err Report)) (buf : Slice) :
    ∃ buf' pad, readFrameLoop grow defs (rs.map .ok ++ tail) buf = .ret (tail, buf', .ok buf') ∧
      buf'.data = (if first then [] else buf.data) ++ data ++ pad ∧ Zeros pad ∧
      ∃ d ∈ defs, d.dir = .accIn ∧ (pad.length : Int) < d.maxPayload := by
  induction h generalizing buf with
  | last h1 h2 h3 =>
    rename_i first rest d
    obtain ⟨hd1, hd2⟩ := pick_some h1
    have hc := hg.carries _ hd1
    have hm : d.maxPayload = d.len - 1 := rfl
    have hl : rest.length ≠ 0 := by simpa using h2
    simp only [List.map_cons, List.map_nil, List.cons_append, List.nil_append, readFrameLoop, find_pick hg hd1]
    rw [if_neg (by omega)]
    have ht : List.take (min (rest ++ List.replicate (d.maxPayload.toNat - rest.length) 0).length d.maxPayload.toNat)
        (rest ++ List.replicate (d.maxPayload.toNat - rest.length) (0 : UInt8)) =
        rest ++ List.replicate (d.maxPayload.toNat - rest.length) 0 := by
      apply List.take_of_length_le
      simp
      omega
    rw [ht]
    have hz : Zeros (List.replicate (d.maxPayload.toNat - rest.length) 0) := by
      intro x hx; exact (List.mem_replicate.1 hx).2
    cases first with
    | true =>
      simp only [if_true]
      exact ⟨_, List.replicate (d.maxPayload.toNat - rest.length) 0, rfl, by simp, hz, d, hd1, hd2, by simp; omega⟩
    | false =>
      simp only [Bool.false_eq_true, if_false]
      refine ⟨buf.write grow (rest ++ List.replicate (d.maxPayload.toNat - rest.length) 0),
        List.replicate (d.maxPayload.toNat - rest.length) 0, ?_, by simp, hz, d, hd1, hd2, by simp; omega⟩
      rw [if_neg (by decide), if_neg (by decide), if_neg (by decide), if_pos trivial]
  | more h1 h2 h3 h4 h5 ih =>
    rename_i first part rest d rs
    obtain ⟨hd1, hd2⟩ := pick_some h1
    have hc := hg.carries _ hd1
    have hm : d.maxPayload = d.len - 1 := rfl
    simp only [List.map_cons, List.cons_append, readFrameLoop, find_pick hg hd1]
    rw [if_neg (by omega)]
    have ht : List.take (min part.length d.maxPayload.toNat) part = part := by
      apply List.take_of_length_le
      omega
    rw [ht]
    cases first with
    | true =>
      simp only [if_true]
      rw [if_neg (by decide)]
      obtain ⟨buf', pad, i1, i2, i3, i4⟩ := ih (buf.reset.write grow part)
      refine ⟨buf', pad, i1, ?_, i3, i4⟩
      rw [i2]
      simp
    | false =>
      simp only [Bool.false_eq_true, if_false]
      rw [if_neg (by decide), if_neg (by decide), if_pos (by decide)]
      obtain ⟨buf', pad, i1, i2, i3, i4⟩ := ih (buf.write grow part)
      refine ⟨buf', pad, i1, ?_, i3, i4⟩
      rw [i2]
      simp

end Ipod.Hid

namespace Ipod.Hid
open Go Spec

theorem accepted_iff {defs : List ReportDef} {r : Report} {b : Bytes} :
    Accepted defs r b ↔ ∃ d, find defs r.id.toNat = some d ∧ 0 ≤ d.maxPayload ∧ b = r.data.take d.maxPayload.toNat := by
  constructor
  · rintro ⟨pre, post, d, h1, h2, h3, h4⟩
    exact ⟨d, find_some.2 ⟨pre, post, h1, h2, h3⟩, h4, rfl⟩
  · rintro ⟨d, h, h4, rfl⟩
    obtain ⟨pre, post, h1, h2, h3⟩ := find_some.1 h
    exact .mk pre post d h1 h2 h3 h4

theorem accepted_unique {defs : List ReportDef} {r : Report} {b b' : Bytes} (h : Accepted defs r b)
    (h' : Accepted defs r b') : b = b' := by
  obtain ⟨d, h1, _, rfl⟩ := accepted_iff.1 h
  obtain ⟨d', h1', _, rfl⟩ := accepted_iff.1 h'
  rw [h1] at h1'
  cases h1'
  rfl

/-- One accepted report, by its link control. -/
theorem readFrameLoop_accepted (grow : Growth) (defs : List ReportDef) (r : Report) (b : Bytes) (h : Accepted defs r b)
    (rs : List (Except Err Report)) (buf : Slice) :
    readFrameLoop grow defs (.ok r :: rs) buf =
      let buf1 := if Starts r then buf.reset.write grow b else if Known r then buf.write grow b else buf
      if Ends r then .ret (rs, buf1, .ok buf1) else readFrameLoop grow defs rs buf1 := by
  obtain ⟨d, h1, h2, rfl⟩ := accepted_iff.1 h
  rw [readFrameLoop, h1]
  simp only
  rw [if_neg (by omega), Nat.min_comm r.data.length, ← List.take_eq_take_min]
  by_cases c0 : r.linkControl = 0x00
  · have s : Starts r := .inl c0
    have e : Ends r := .inl c0
    simp only [if_pos s, if_pos e]
    rw [if_pos c0]
  · by_cases c2 : r.linkControl = 0x02
    · have s : Starts r := .inr c2
      have e : ¬ Ends r := by rintro (h | h) <;> simp [c2] at h
      simp only [if_pos s, if_neg e]
      rw [if_neg c0, if_pos c2]
    · have s : ¬ Starts r := by rintro (h | h) <;> contradiction
      simp only [if_neg s]
      rw [if_neg c0, if_neg c2]
      by_cases c3 : r.linkControl = 0x03
      · have e : ¬ Ends r := by rintro (h | h) <;> simp [c3] at h
        have k : Known r := by simp [Known, c3]
        simp only [if_neg e, if_pos k]
        rw [if_pos (show r.linkControl = linkControlContinue ||| linkControlMoreToFollow from c3)]
      · rw [if_neg (show ¬ r.linkControl = linkControlContinue ||| linkControlMoreToFollow from c3)]
        by_cases c1 : r.linkControl = 0x01
        · have e : Ends r := .inr c1
          have k : Known r := by simp [Known, c1]
          simp only [if_pos e, if_pos k]
          rw [if_pos c1]
        · have e : ¬ Ends r := by rintro (h | h) <;> contradiction
          have k : ¬ Known r := by
            intro hk
            have : r.linkControl.toNat = 0 ∨ r.linkControl.toNat = 1 ∨ r.linkControl.toNat = 2 ∨ r.linkControl.toNat = 3 := by
              unfold Known at hk; omega
            rcases this with h | h | h | h
            · exact c0 (UInt8.toNat_inj.1 h)
            · exact c1 (UInt8.toNat_inj.1 h)
            · exact c2 (UInt8.toNat_inj.1 h)
            · exact c3 (UInt8.toNat_inj.1 h)
          simp only [if_neg e, if_neg k]
          rw [if_neg c1]

/-- `used`, starting with `acc` in the buffer, delivers `frame`. -/
inductive Run (defs : List ReportDef) : Bytes → List Report → Bytes → Prop
  | stop {acc r b} : Accepted defs r b → Ends r → Run defs acc [r] ((if Starts r then [] else acc) ++ b)
  | go {acc r b rs f} : Accepted defs r b → ¬ Ends r →
      Run defs (if Starts r then b else if Known r then acc ++ b else acc) rs f → Run defs acc (r :: rs) f

theorem ends_known {r : Report} (h : Ends r) : Known r := by
  rcases h with h | h <;> simp [Known, h]

theorem starts_known {r : Report} (h : Starts r) : Known r := by
  rcases h with h | h <;> simp [Known, h]

theorem readFrameLoop_run (grow : Growth) (defs : List ReportDef) (rs : List (Except Err Report)) (buf : Slice)
    (rest : List (Except Err Report)) (frame : Bytes) :
    (∃ b' f, readFrameLoop grow defs rs buf = .ret (rest, b', .ok f) ∧ f.data = frame) ↔
      ∃ used, rs = used.map .ok ++ rest ∧ Run defs buf.data used frame := by
  induction rs generalizing buf with
  | nil =>
    constructor
    · rintro ⟨b', f, h, _⟩; simp [readFrameLoop] at h
    · rintro ⟨used, h, hr⟩
      cases hr <;> simp at h
  | cons x rs ih =>
    cases x with
    | error e =>
      constructor
      · rintro ⟨b', f, h, _⟩; simp [readFrameLoop] at h
      · rintro ⟨used, h, hr⟩
        cases hr <;> simp at h
    | ok r =>
      by_cases ha : ∃ b, Accepted defs r b
      · obtain ⟨b, ha⟩ := ha
        rw [readFrameLoop_accepted grow defs r b ha]
        simp only
        by_cases he : Ends r
        · rw [if_pos he]
          constructor
          · rintro ⟨b', f, h, hf⟩
            simp only [Out.ret.injEq, Prod.mk.injEq, Except.ok.injEq] at h
            obtain ⟨rfl, rfl, rfl⟩ := h
            refine ⟨[r], rfl, ?_⟩
            have := Run.stop (acc := buf.data) ha he
            have e : (if Starts r then [] else buf.data) ++ b = frame := by
              rw [← hf]
              by_cases s : Starts r
              · simp [s]
              · simp [s, ends_known he]
            rw [e] at this
            exact this
          · rintro ⟨used, h, hr⟩
            cases hr with
            | stop ha' _ =>
              simp only [List.map_cons, List.map_nil, List.cons_append, List.nil_append, List.cons.injEq,
                Except.ok.injEq] at h
              obtain ⟨rfl, rfl⟩ := h
              have hb := accepted_unique ha ha'
              subst hb
              refine ⟨_, _, rfl, ?_⟩
              by_cases s : Starts r
              · simp [s]
              · simp [s, ends_known he]
            | go _ hne _ =>
              simp only [List.map_cons, List.cons_append, List.cons.injEq, Except.ok.injEq] at h
              exact absurd (h.1 ▸ he) hne
        · rw [if_neg he, ih]
          have hd : (if Starts r then buf.reset.write grow b else if Known r then buf.write grow b else buf).data =
              if Starts r then b else if Known r then buf.data ++ b else buf.data := by
            by_cases s : Starts r
            · simp [s]
            · by_cases k : Known r <;> simp [s, k]
          rw [hd]
          constructor
          · rintro ⟨used, rfl, hr⟩
            exact ⟨r :: used, rfl, .go ha he hr⟩
          · rintro ⟨used, h, hr⟩
            cases hr with
            | stop _ he' =>
              simp only [List.map_cons, List.map_nil, List.cons_append, List.nil_append, List.cons.injEq,
                Except.ok.injEq] at h
              exact absurd (h.1.symm ▸ he') he
            | go ha' _ hr =>
              simp only [List.map_cons, List.cons_append, List.cons.injEq, Except.ok.injEq] at h
              obtain ⟨rfl, rfl⟩ := h
              have hb := accepted_unique ha ha'
              subst hb
              exact ⟨_, rfl, hr⟩
      · constructor
        · rintro ⟨b', f, h, _⟩
          rw [readFrameLoop] at h
          cases hf : find defs r.id.toNat with
          | none => rw [hf] at h; simp at h
          | some d =>
            rw [hf] at h
            simp only at h
            by_cases hn : d.maxPayload < 0
            · rw [if_pos hn] at h; simp at h
            · exact absurd ⟨_, accepted_iff.2 ⟨d, hf, by omega, rfl⟩⟩ ha
        · rintro ⟨used, h, hr⟩
          cases hr with
          | stop ha' _ =>
            simp only [List.map_cons, List.map_nil, List.cons_append, List.nil_append, List.cons.injEq,
              Except.ok.injEq] at h
            obtain ⟨rfl, rfl⟩ := h
            exact absurd ⟨_, ha'⟩ ha
          | go ha' _ _ =>
            simp only [List.map_cons, List.cons_append, List.cons.injEq, Except.ok.injEq] at h
            obtain ⟨rfl, rfl⟩ := h
            exact absurd ⟨_, ha'⟩ ha

theorem Run.shape {defs acc used frame} (h : Run defs acc used frame) :
    (∃ init last, used = init ++ [last] ∧ Ends last ∧ ∀ r ∈ init, ¬ Ends r) ∧
    (∀ r ∈ used, ∃ b, Accepted defs r b) ∧
    ((∃ f, frame = acc ++ f ∧ Carried defs used f ∧ ∀ r ∈ used, ¬ Starts r) ∨
     ∃ a b, used = a ++ b ∧ Carried defs b frame ∧ (∀ r ∈ b.tail, ¬ Starts r) ∧ ∃ r ∈ b.head?, Starts r) := by
  induction h with
  | stop ha he =>
    rename_i acc r b
    refine ⟨⟨[], r, rfl, he, by simp⟩, by simp; exact ⟨b, ha⟩, ?_⟩
    by_cases s : Starts r
    · right
      refine ⟨[], [r], rfl, ?_, by simp, r, rfl, s⟩
      have := Carried.cons (starts_known s) ha .nil
      simpa [s] using this
    · left
      refine ⟨b, by simp [s], ?_, by simpa using s⟩
      have := Carried.cons (ends_known he) ha .nil
      simpa using this
  | go ha he hrun ih =>
    rename_i acc r b rs f
    obtain ⟨⟨init, last, e1, e2, e3⟩, i2, i3⟩ := ih
    refine ⟨⟨r :: init, last, by rw [e1]; rfl, e2, ?_⟩, ?_, ?_⟩
    · intro x hx
      rcases List.mem_cons.1 hx with rfl | hx
      · exact he
      · exact e3 x hx
    · intro x hx
      rcases List.mem_cons.1 hx with rfl | hx
      · exact ⟨b, ha⟩
      · exact i2 x hx
    · rcases i3 with ⟨g, hg, hc, hs⟩ | ⟨a, b', h1, h2, h3, h4⟩
      · by_cases s : Starts r
        · right
          refine ⟨[], r :: rs, rfl, ?_, by simpa using hs, r, rfl, s⟩
          rw [hg, if_pos s]
          exact .cons (starts_known s) ha hc
        · left
          have hall : ∀ x ∈ r :: rs, ¬ Starts x := by
            intro x hx
            rcases List.mem_cons.1 hx with rfl | hx
            · exact s
            · exact hs x hx
          by_cases k : Known r
          · refine ⟨b ++ g, ?_, .cons k ha hc, hall⟩
            rw [hg, if_neg s, if_pos k, List.append_assoc]
          · refine ⟨g, ?_, .skip k ha hc, hall⟩
            rw [hg, if_neg s, if_neg k]
      · right
        exact ⟨r :: a, b', by rw [h1]; rfl, h2, h3, h4⟩

/-- From the shape back to a run: the reports from the last start on. -/
theorem Run.of_carried {defs b f} (h : Carried defs b f) (acc : Bytes) (hs : ∀ r ∈ b, ¬ Starts r)
    (he : ∃ init last, b = init ++ [last] ∧ Ends last ∧ ∀ r ∈ init, ¬ Ends r) : Run defs acc b (acc ++ f) := by
  induction h generalizing acc with
  | nil => obtain ⟨init, last, h, _⟩ := he; simp at h
  | cons hk ha hc ih =>
    rename_i r rs b bs
    obtain ⟨init, last, e1, e2, e3⟩ := he
    have s : ¬ Starts r := hs r (by simp)
    cases init with
    | nil =>
      simp only [List.nil_append, List.cons.injEq] at e1
      obtain ⟨rfl, rfl⟩ := e1
      cases hc
      have := Run.stop (acc := acc) ha e2
      simpa [s] using this
    | cons i init =>
      simp only [List.cons_append, List.cons.injEq] at e1
      obtain ⟨rfl, e1⟩ := e1
      have := ih (acc ++ b) (fun x hx => hs x (by simp [hx]))
        ⟨init, last, e1, e2, fun x hx => e3 x (by simp [hx])⟩
      refine .go ha (e3 _ (by simp)) ?_
      rw [if_neg s, if_pos hk]
      simpa [List.append_assoc] using this
  | skip hk ha hc ih =>
    rename_i r rs b bs
    obtain ⟨init, last, e1, e2, e3⟩ := he
    have s : ¬ Starts r := hs r (by simp)
    cases init with
    | nil =>
      simp only [List.nil_append, List.cons.injEq] at e1
      obtain ⟨rfl, rfl⟩ := e1
      exact absurd (ends_known e2) hk
    | cons i init =>
      simp only [List.cons_append, List.cons.injEq] at e1
      obtain ⟨rfl, e1⟩ := e1
      have := ih acc (fun x hx => hs x (by simp [hx])) ⟨init, last, e1, e2, fun x hx => e3 x (by simp [hx])⟩
      refine .go ha (e3 _ (by simp)) ?_
      rw [if_neg s, if_neg hk]
      exact this

/-- Reports before a run do not matter if they do not end a transfer, and the run begins with a start. -/
theorem Run.skip {defs a b f} (acc : Bytes) (ha : ∀ r ∈ a, (∃ x, Accepted defs r x) ∧ ¬ Ends r)
    (hb : ∀ acc, Run defs acc b f) : Run defs acc (a ++ b) f := by
  induction a generalizing acc with
  | nil => exact hb acc
  | cons r a ih =>
    obtain ⟨⟨x, h1⟩, h2⟩ := ha r (by simp)
    exact .go h1 h2 (ih _ (fun r hr => ha r (by simp [hr])))

theorem delivered_run {defs used frame} (h : Delivered defs used frame) : Run defs [] used frame := by
  obtain ⟨⟨init, last, e1, e2, e3⟩, hacc, a, b, e4, hc, hs, hor⟩ := h
  have hb : b ≠ [] ∨ b = [] := by by_cases h : b = [] <;> simp [h]
  have hbne : b ≠ [] := by
    rintro rfl
    rcases hor with rfl | ⟨r, hr, _⟩
    · rw [e4] at e1; simp at e1
    · simp at hr
  -- the end of `b` is the end of `used`
  obtain ⟨binit, hbi⟩ : ∃ binit, b = binit ++ [last] ∧ a ++ binit = init := by
    refine ⟨b.dropLast, ?_, ?_⟩
    · have hl : used.getLast? = some last := by rw [e1]; simp
      rw [e4, List.getLast?_append, List.getLast?_eq_some_getLast hbne, Option.some_or, ← List.getLast?_eq_some_getLast hbne] at hl
      rw [List.getLast?_eq_some_iff] at hl
      obtain ⟨ys, rfl⟩ := hl
      simp
    · have h1 : used.dropLast = init := by rw [e1]; simp
      rw [e4, List.dropLast_append_of_ne_nil hbne] at h1
      exact h1
  have hends : ∃ init last, b = init ++ [last] ∧ Ends last ∧ ∀ r ∈ init, ¬ Ends r :=
    ⟨binit, last, hbi.1, e2, fun r hr => e3 r (by rw [← hbi.2]; simp [hr])⟩
  have haa : ∀ r ∈ a, (∃ x, Accepted defs r x) ∧ ¬ Ends r := fun r hr =>
    ⟨hacc r (by rw [e4]; simp [hr]), e3 r (by rw [← hbi.2]; simp [hr])⟩
  rw [e4]
  obtain ⟨r, rs, rfl⟩ : ∃ r rs, b = r :: rs := List.exists_cons_of_ne_nil hbne
  simp only [List.tail_cons] at hs
  by_cases s : Starts r
  · apply Run.skip [] haa
    intro acc
    cases hc with
    | skip hk _ _ => exact absurd (starts_known s) hk
    | cons hk hx hc =>
      rename_i bb bs
      obtain ⟨init', last', q1, q2, q3⟩ := hends
      cases init' with
      | nil =>
        simp only [List.nil_append, List.cons.injEq] at q1
        obtain ⟨rfl, rfl⟩ := q1
        cases hc
        have := Run.stop (acc := acc) hx q2
        simpa [s] using this
      | cons i init' =>
        simp only [List.cons_append, List.cons.injEq] at q1
        obtain ⟨rfl, q1⟩ := q1
        refine .go hx (q3 _ (by simp)) ?_
        rw [if_pos s]
        exact Run.of_carried hc bb hs ⟨init', last', q1, q2, fun x hx => q3 x (by simp [hx])⟩
  · rcases hor with rfl | ⟨r', hr', hs'⟩
    · have := Run.of_carried hc [] (by
        intro x hx
        rcases List.mem_cons.1 hx with rfl | hx
        · exact s
        · exact hs x hx) hends
      simpa using this
    · simp only [List.head?_cons, Option.mem_def, Option.some.injEq] at hr'
      subst hr'
      exact absurd hs' s

theorem run_delivered {defs used frame} (h : Run defs [] used frame) : Delivered defs used frame := by
  obtain ⟨h1, h2, ⟨f, rfl, hc, hs⟩ | ⟨a, b, h3, h4, h5, h6⟩⟩ := h.shape
  · exact ⟨h1, h2, [], used, rfl, by simpa using hc, fun r hr => hs r (List.mem_of_mem_tail hr), .inl rfl⟩
  · exact ⟨h1, h2, a, b, h3, h4, h5, .inr h6⟩

/-! ### more about the loops -/

theorem writeFrameLoop_mono {defs fails data} {fuel fuel' : Nat} (hf : fuel ≤ fuel') {log : List Report} {offset left x}
    (h : writeFrameLoop defs fails data fuel log offset left = some x) :
    writeFrameLoop defs fails data fuel' log offset left = some x := by
  induction fuel generalizing fuel' log offset left with
  | zero => simp [writeFrameLoop] at h
  | succ fuel ih =>
    obtain ⟨fuel', rfl⟩ : ∃ f, fuel' = f + 1 := ⟨fuel' - 1, by omega⟩
    rw [writeFrameLoop] at h ⊢
    by_cases h0 : left = 0
    · rw [if_pos h0] at h ⊢; exact h
    · rw [if_neg h0] at h ⊢
      cases hp : pick defs left .accIn with
      | none => rw [hp] at h; exact h
      | some d =>
        rw [hp] at h
        simp only at h ⊢
        split at h <;> rename_i hn
        · rw [if_pos hn]; exact h
        · rw [if_neg hn]
          by_cases hg : left > d.maxPayload.toNat
          all_goals
            simp only [hg, if_false] at h ⊢
            cases hfl : fails log.length with
            | some e => rw [hfl] at h; exact h
            | none => rw [hfl] at h; exact ih (by omega) h

theorem readFrameLoop_junk {grow : Growth} {defs : List ReportDef} (junk : List Report)
    (hj : ∀ r ∈ junk, (∃ x, Accepted defs r x) ∧ ¬ Ends r) (rs : List (Except Err Report)) (buf : Slice) :
    ∃ buf', readFrameLoop grow defs (junk.map .ok ++ rs) buf = readFrameLoop grow defs rs buf' := by
  induction junk generalizing buf with
  | nil => exact ⟨buf, rfl⟩
  | cons r junk ih =>
    obtain ⟨⟨x, h1⟩, h2⟩ := hj r (by simp)
    simp only [List.map_cons, List.cons_append]
    rw [readFrameLoop_accepted grow defs r x h1]
    simp only
    rw [if_neg h2]
    exact ih (fun r hr => hj r (by simp [hr])) _

end Ipod.Hid
