import Verif.Spec.Order
import Verif.Props.Repeats
import Verif.Props.Damage

/-! # Property C117: reports that arrive in another order -/

namespace Props
open Go Spec Ipod Ipod.Hid

/-! ## C117 -/

/-- What a report sent as part of a frame is like. -/
structure Part (defs : List ReportDef) (r : Report) : Prop where
  accepted : Accepted defs r r.data
  known : Known r

theorem known_cases {r : Report} (h : Known r) :
    r.linkControl = 0x00 ∨ r.linkControl = 0x01 ∨ r.linkControl = 0x02 ∨ r.linkControl = 0x03 := by
  unfold Known at h
  have : r.linkControl.toNat = 0 ∨ r.linkControl.toNat = 1 ∨ r.linkControl.toNat = 2 ∨ r.linkControl.toNat = 3 := by omega
  rcases this with h | h | h | h
  · exact .inl (UInt8.toNat_inj.1 h)
  · exact .inr (.inl (UInt8.toNat_inj.1 h))
  · exact .inr (.inr (.inl (UInt8.toNat_inj.1 h)))
  · exact .inr (.inr (.inr (UInt8.toNat_inj.1 h)))

/-- What is pending after reports none of which ends a frame. -/
def held : Bytes → List Report → Bytes
  | p, [] => p
  | p, r :: rs => held (if r.linkControl = 0x02 then r.data else p ++ r.data) rs

theorem held_append (p : Bytes) (a b : List Report) : held p (a ++ b) = held (held p a) b := by
  induction a generalizing p with
  | nil => rfl
  | cons r a ih => rw [List.cons_append, held, held, ih]

theorem held_continues (p : Bytes) (rs : List Report) (h : ∀ r ∈ rs, r.linkControl ≠ 0x02) : held p rs = p ++ dataOf rs := by
  induction rs generalizing p with
  | nil => simp [held, dataOf]
  | cons r rs ih =>
    rw [held, if_neg (h r (.head _)), ih _ fun r hr => h r (.tail _ hr), dataOf_cons, List.append_assoc]

theorem held_starts (p : Bytes) (a : List Report) {r : Report} (hr : r.linkControl = 0x02) (b : List Report)
    (hb : ∀ r ∈ b, r.linkControl ≠ 0x02) : held p (a ++ r :: b) = r.data ++ dataOf b := by
  rw [held_append, held, if_pos hr, held_continues _ _ hb]

/-- A list without ends: either nothing starts in it, or it is cut at the last start. -/
theorem last_start (rs : List Report) : (∀ r ∈ rs, r.linkControl ≠ 0x02) ∨
    ∃ a r b, rs = a ++ r :: b ∧ r.linkControl = 0x02 ∧ ∀ r ∈ b, r.linkControl ≠ 0x02 := by
  induction rs with
  | nil => exact .inl (by simp)
  | cons r rs ih =>
    rcases ih with ih | ⟨a, x, b, rfl, h1, h2⟩
    · by_cases h : r.linkControl = 0x02
      · exact .inr ⟨[], r, rs, rfl, h, ih⟩
      · refine .inl fun x hx => ?_
        rcases List.mem_cons.1 hx with rfl | hx
        · exact h
        · exact ih x hx
    · exact .inr ⟨r :: a, x, b, rfl, h1, h2⟩

/-- One call: reports without end, then one that ends. -/
theorem delivered_held {defs : List ReportDef} {stray : List Report} (hs : ∀ r ∈ stray, Part defs r ∧ ¬ Ends r) {r : Report}
    (hr : Part defs r) (he : Ends r) :
    Delivered defs (stray ++ [r]) (if r.linkControl = 0x00 then r.data else held [] stray ++ r.data) := by
  have hns : ∀ x ∈ stray, x.linkControl ≠ 0x02 → ¬ Starts x := fun x hx h hst =>
    hst.elim (fun h0 => (hs x hx).2 (.inl h0)) h
  refine ⟨⟨stray, r, rfl, he, fun x hx => (hs x hx).2⟩, fun x hx => ?_, ?_⟩
  · rcases List.mem_append.1 hx with hx | hx
    · exact ⟨_, (hs x hx).1.accepted⟩
    · rw [List.mem_singleton.1 hx]; exact ⟨_, hr.accepted⟩
  · by_cases h0 : r.linkControl = 0x00
    · rw [if_pos h0]
      refine ⟨stray, [r], rfl, ?_, by simp, .inr ⟨r, rfl, .inl h0⟩⟩
      simpa [dataOf] using carried_sent (defs := defs) [r] (by simpa using hr.accepted) (by simpa using hr.known)
    · rw [if_neg h0]
      have hr1 : ¬ Starts r := fun h => by
        rcases h with h | h
        · exact h0 h
        · rcases he with he | he
          · exact h0 he
          · rw [h] at he; exact absurd he (by decide)
      rcases last_start stray with h | ⟨a, x, b, rfl, h1, h2⟩
      · refine ⟨[], stray ++ [r], rfl, ?_, ?_, .inl rfl⟩
        · rw [held_continues _ _ h, List.nil_append]
          have := carried_sent (defs := defs) (stray ++ [r])
            (fun x hx => (List.mem_append.1 hx).elim (fun hx => (hs x hx).1.accepted) fun hx => by
              rw [List.mem_singleton.1 hx]; exact hr.accepted)
            (fun x hx => (List.mem_append.1 hx).elim (fun hx => (hs x hx).1.known) fun hx => by
              rw [List.mem_singleton.1 hx]; exact hr.known)
          rwa [dataOf_append, show dataOf [r] = r.data by simp [dataOf]] at this
        · intro x hx
          have hx := List.mem_of_mem_tail hx
          rcases List.mem_append.1 hx with hx | hx
          · exact hns x hx (h x hx)
          · rw [List.mem_singleton.1 hx]; exact hr1
      · refine ⟨a, x :: (b ++ [r]), by simp, ?_, ?_, .inr ⟨x, rfl, .inr h1⟩⟩
        · rw [held_starts _ _ h1 _ h2]
          have hm : ∀ y ∈ x :: (b ++ [r]), Part defs y := by
            intro y hy
            rcases List.mem_cons.1 hy with rfl | hy
            · exact (hs _ (by simp)).1
            · rcases List.mem_append.1 hy with hy | hy
              · exact (hs y (by simp [hy])).1
              · rw [List.mem_singleton.1 hy]; exact hr
          have := carried_sent (defs := defs) (x :: (b ++ [r])) (fun y hy => (hm y hy).accepted) fun y hy => (hm y hy).known
          rwa [dataOf_cons, dataOf_append, show dataOf [r] = r.data by simp [dataOf], ← List.append_assoc] at this
        · intro y hy
          rw [List.tail_cons] at hy
          rcases List.mem_append.1 hy with hy | hy
          · exact hns y (by simp [hy]) (h2 y hy)
          · rw [List.mem_singleton.1 hy]; exact hr1

theorem gathered_end {p : Bytes} {r : Report} (h : Ends r) (rs : List Report) :
    gathered p (r :: rs) = (if r.linkControl = 0x00 then r.data else p ++ r.data) :: gathered [] rs := by
  rw [gathered]
  by_cases h0 : r.linkControl = 0x00
  · rw [if_pos h0, if_pos h0]
  · have h1 : r.linkControl = 0x01 := h.resolve_left h0
    rw [if_neg h0, if_neg h0, if_neg (by rw [h1]; decide), if_pos h1]

theorem gathered_goes {p : Bytes} {r : Report} (h : ¬ Ends r) (rs : List Report) :
    gathered p (r :: rs) = gathered (if r.linkControl = 0x02 then r.data else p ++ r.data) rs := by
  rw [gathered, if_neg fun h0 => h (.inl h0)]
  by_cases h2 : r.linkControl = 0x02
  · rw [if_pos h2, if_pos h2]
  · rw [if_neg h2, if_neg h2, if_neg fun h1 => h (.inr h1)]

theorem gathered_length (p : Bytes) (rs : List Report) : (gathered p rs).length = rs.countP fun r => decide (Ends r) := by
  induction rs generalizing p with
  | nil => rfl
  | cons r rs ih =>
    by_cases h : Ends r
    · rw [gathered_end h, List.length_cons, ih, List.countP_cons_of_pos (by simpa using h)]
    · rw [gathered_goes h, ih, List.countP_cons_of_neg (by simpa using h)]

theorem accepted_known {defs : List ReportDef} {r : Report} {b : Bytes} (h : Accepted defs r b) : ∃ d ∈ defs, d.id = r.id.toNat := by
  obtain ⟨d, hd, _⟩ := accepted_iff.1 h
  obtain ⟨pre, post, e, h1, _⟩ := find_some.1 hd
  exact ⟨d, by rw [e]; simp, h1⟩

theorem arriving_parts (grow : Growth) (defs : List ReportDef) (hg : GoodTable defs) (rs : List Report)
    (h : ∀ r ∈ rs, Part defs r) (buf : Slice) (k : Nat) :
    readFrames grow defs ((gathered [] rs).length + k) (rs.map .ok) buf =
      .ret ((gathered [] rs).map .ok ++ List.replicate k (.error .eof)) := by
  suffices ∀ (stray : List Report), (∀ r ∈ stray, Part defs r ∧ ¬ Ends r) → ∀ buf,
      readFrames grow defs ((gathered (held [] stray) rs).length + k) (stray.map .ok ++ rs.map .ok) buf =
        .ret ((gathered (held [] stray) rs).map .ok ++ List.replicate k (.error .eof)) by
    simpa [held] using this [] (by simp) buf
  induction rs with
  | nil =>
    intro stray hs buf
    have := readFrames_rest grow hg stray (fun r hr => ⟨accepted_known (hs r hr).1.accepted, (hs r hr).2⟩) buf k
    simpa [gathered] using this
  | cons r rs ih =>
    intro stray hs buf
    have ih := ih fun r hr => h r (.tail _ hr)
    have hr := h r (.head _)
    by_cases he : Ends r
    · have hd := delivered_held hs hr he
      have := readFrames_step (grow := grow) hd (tail := rs.map .ok) (n := (gathered [] rs).length + k)
        (fs := (gathered [] rs).map .ok ++ List.replicate k (.error .eof)) (fun b => by simpa [held] using ih [] (by simp) b) buf
      rw [gathered_end he, List.length_cons, show (gathered [] rs).length + 1 + k = (gathered [] rs).length + k + 1 by omega]
      simpa using this
    · have := ih (stray ++ [r]) (fun x hx => by
        rcases List.mem_append.1 hx with hx | hx
        · exact hs x hx
        · rw [List.mem_singleton.1 hx]; exact ⟨hr, he⟩) buf
      rw [held_append] at this
      rw [gathered_goes he]
      simpa [held] using this

theorem part_of_written {defs : List ReportDef} (hg : GoodTable defs) {frame : Bytes} (hf : frame ≠ []) {rs : List Report}
    (hw : Written defs frame rs) : ∀ r ∈ rs, Part defs r :=
  fun r hr => ⟨(written_reports hg hf hw).1 r hr, (written_reports hg hf hw).2.1 r hr⟩

/-- C117. Whatever reports of written frames arrive, in any order, any number of times, of however many frames: exactly what is
delivered. -/
theorem C117_arriving (grow : Growth) (defs : List ReportDef) (hg : GoodTable defs) (rs : List Report)
    (h : ∀ r ∈ rs, ∃ frame sent, frame ≠ [] ∧ Written defs frame sent ∧ r ∈ sent) (buf : Slice) (k : Nat) :
    readFrames grow defs ((gathered [] rs).length + k) (rs.map .ok) buf =
      .ret ((gathered [] rs).map .ok ++ List.replicate k (.error .eof)) :=
  arriving_parts grow defs hg rs (fun r hr => by
    obtain ⟨frame, sent, h1, h2, h3⟩ := h r hr
    exact part_of_written hg h1 h2 r h3) buf k

/-- What is needed of a frame whose reports arrive in some order. -/
def Shuffled (defs : List ReportDef) (t : Transfer) : Prop := t.frame ≠ [] ∧ Written defs t.frame t.sent ∧ t.got.Perm t.sent

theorem written_data_ne {defs : List ReportDef} (hg : GoodTable defs) {frame : Bytes} (hf : frame ≠ []) {rs : List Report}
    (hw : Written defs frame rs) (r : Report) (hr : r ∈ rs) : r.data ≠ [] := by
  obtain ⟨d, d1, -, -, d2⟩ := ((written_is_chunks hg hf hw).data hg).1 r hr
  have := hg.carries d d1
  intro e
  rw [e] at d2
  simp only [ReportDef.maxPayload, List.length_nil] at d2
  omega

theorem ok_inj (l l' : List Bytes) (h : l.map (Except.ok (ε := Err)) = l'.map .ok) : l = l' := by
  induction l generalizing l' with
  | nil => cases l' with
    | nil => rfl
    | cons _ _ => simp at h
  | cons a l ih => cases l' with
    | nil => simp at h
    | cons b l' =>
      simp only [List.map_cons, List.cons.injEq, Except.ok.injEq] at h
      rw [h.1, ih _ h.2]

theorem last_of (a : List Report) (x : Report) (b : List Report) (z : Report) : (a ++ x :: (b ++ [z])).getLast? = some z := by
  rw [← List.cons_append, ← List.append_assoc, List.getLast?_concat]

/-- The reports of a frame: one, or a first, some in between and a last. -/
theorem written_shape {defs : List ReportDef} (hg : GoodTable defs) {frame : Bytes} (hf : frame ≠ []) {rs : List Report}
    (hw : Written defs frame rs) :
    (∃ r, rs = [r] ∧ r.linkControl = 0x00) ∨
    ∃ first mid last, rs = first :: (mid ++ [last]) ∧ first.linkControl = 0x02 ∧ (∀ r ∈ mid, r.linkControl = 0x03) ∧
      last.linkControl = 0x01 := by
  have hl := (written_is_chunks hg hf hw).linkSeq
  generalize hq : rs.map (·.linkControl) = q at hl
  cases hl with
  | single =>
    rcases rs with _ | ⟨r, _ | ⟨_, _⟩⟩
    · cases hq
    · exact .inl ⟨r, rfl, by simpa using hq⟩
    · simp at hq
  | several k =>
    rcases rs with _ | ⟨first, rs⟩
    · cases hq
    · simp only [List.map_cons, List.cons.injEq] at hq
      obtain ⟨h1, h2⟩ := hq
      rcases List.eq_nil_or_concat rs with rfl | ⟨mid, last, rfl⟩
      · simp at h2
      · rw [List.concat_eq_append, List.map_append, List.map_singleton] at h2
        obtain ⟨h3, h4⟩ := List.append_inj' h2 rfl
        refine .inr ⟨first, mid, last, by simp, h1, fun r hr => ?_, by simpa using h4⟩
        have : r.linkControl ∈ mid.map (·.linkControl) := List.mem_map_of_mem hr
        rw [h3] at this
        exact (List.mem_replicate.1 this).2

theorem dataOf_length_perm {a b : List Report} (h : a.Perm b) : (dataOf a).length = (dataOf b).length := by
  induction h with
  | nil => rfl
  | cons x _ ih => simp only [dataOf_cons, List.length_append, ih]
  | swap x y l => simp only [dataOf_cons, List.length_append]; omega
  | trans _ _ i1 i2 => rw [i1, i2]

theorem held_le (p : Bytes) (rs : List Report) : (held p rs).length ≤ p.length + (dataOf rs).length := by
  induction rs generalizing p with
  | nil => simp [held, dataOf]
  | cons r rs ih =>
    rw [held, dataOf_cons, List.length_append]
    have := ih (if r.linkControl = 0x02 then r.data else p ++ r.data)
    by_cases h : r.linkControl = 0x02
    · rw [if_pos h] at this ⊢; omega
    · rw [if_neg h] at this ⊢; rw [List.length_append] at this; omega

theorem gathered_run (p : Bytes) (a : List Report) (ha : ∀ r ∈ a, ¬ Ends r) (rs : List Report) :
    gathered p (a ++ rs) = gathered (held p a) rs := by
  induction a generalizing p with
  | nil => rfl
  | cons r a ih => rw [List.cons_append, gathered_goes (ha r (.head _)), held, ih _ fun r hr => ha r (.tail _ hr)]

/-- A frame of several reports in any order: where the last one came. -/
theorem shuffled_split {got mid : List Report} {first last : Report} (hp : got.Perm (first :: (mid ++ [last])))
    (h1 : first.linkControl = 0x02) (h2 : ∀ r ∈ mid, r.linkControl = 0x03) (h3 : last.linkControl = 0x01) :
    ∃ a b, got = a ++ last :: b ∧ (a ++ b).Perm (first :: mid) ∧ (∀ r ∈ a ++ b, ¬ Ends r) := by
  have hm : last ∈ got := hp.symm.subset (by simp)
  obtain ⟨a, b, rfl⟩ := List.append_of_mem hm
  have hq : (a ++ b).Perm (first :: mid) := by
    have e1 : (a ++ last :: b).Perm (last :: (a ++ b)) := List.perm_middle
    have e2 : (first :: (mid ++ [last])).Perm (last :: (first :: mid)) := by
      have := List.perm_append_comm (l₁ := first :: mid) (l₂ := [last])
      simpa using this
    exact (List.perm_cons last).1 ((e1.symm.trans hp).trans e2)
  refine ⟨a, b, rfl, hq, fun r hr => ?_⟩
  rcases List.mem_cons.1 (hq.subset hr) with rfl | hr
  · unfold Ends; rw [h1]; decide
  · unfold Ends; rw [h2 r hr]; decide

theorem one_start {a : List Report} {first : Report} {mid : List Report} (hq : a.Perm (first :: mid))
    (h1 : first.linkControl = 0x02) (h2 : ∀ r ∈ mid, r.linkControl = 0x03) :
    ∃ x y, a = x ++ first :: y ∧ (x ++ y).Perm mid := by
  have hm : first ∈ a := hq.symm.subset (.head _)
  obtain ⟨x, y, rfl⟩ := List.append_of_mem hm
  exact ⟨x, y, rfl, (List.perm_cons first).1 ((List.perm_middle (l₁ := x) (l₂ := y)).symm.trans hq)⟩

/-- One frame in any order, after what is pending is nothing. -/
theorem shuffled_one {defs : List ReportDef} (hg : GoodTable defs) {t : Transfer} (h : Shuffled defs t) (rest : List Report) :
    (t.Undisturbed ↔ (gathered [] (t.got ++ rest)).head? = some (dataOf t.sent)) ∧
    (t.Undisturbed → gathered [] (t.got ++ rest) = dataOf t.sent :: gathered [] rest) ∧
    t.got.countP (fun r => decide (Ends r)) = 1 := by
  obtain ⟨hf, hw, hp⟩ := h
  have hne : ∀ r ∈ t.sent, r.data ≠ [] := fun r hr => written_data_ne hg hf hw r hr
  rcases written_shape hg hf hw with ⟨r, e, h0⟩ | ⟨first, mid, last, e, h1, h2, h3⟩
  · rw [e] at hp
    have hgot : t.got = [r] := List.perm_singleton.1 hp
    have hgath : gathered [] (t.got ++ rest) = dataOf t.sent :: gathered [] rest := by
      rw [hgot, e, List.singleton_append, gathered_end (.inl h0), if_pos h0]
      simp [dataOf]
    refine ⟨?_, fun _ => hgath, by rw [hgot]; simp [Ends, h0]⟩
    rw [hgath]
    refine ⟨fun _ => rfl, fun _ => ?_⟩
    rw [Transfer.Undisturbed, hgot, e]
    exact ⟨rfl, rfl, rfl⟩
  · rw [e] at hp
    obtain ⟨a, b, eg, hq, hn⟩ := shuffled_split hp h1 h2 h3
    have hna : ∀ r ∈ a, ¬ Ends r := fun r hr => hn r (by simp [hr])
    have hl0 : ¬ last.linkControl = 0x00 := by rw [h3]; decide
    have hgath : gathered [] (t.got ++ rest) = (held [] a ++ last.data) :: gathered [] (b ++ rest) := by
      rw [eg, List.append_assoc, List.cons_append, gathered_run _ _ hna, gathered_end (.inr h3), if_neg hl0]
    have hcount : t.got.countP (fun r => decide (Ends r)) = 1 := by
      have : (first :: (mid ++ [last])).countP (fun r => decide (Ends r)) = 1 := by
        have hm : (first :: mid).countP (fun r => decide (Ends r)) = 0 := List.countP_eq_zero.2 fun r hr => by
          have := hn r (hq.symm.subset hr)
          simpa using this
        rw [← List.cons_append, List.countP_append, hm]
        simp [Ends, h3]
      rw [← this]
      exact hp.countP_eq _
    -- where the first report is
    have key : (held [] a ++ last.data = dataOf t.sent ↔ t.Undisturbed) ∧ (t.Undisturbed → b = []) := by
      have hlen : (dataOf t.sent).length = (dataOf a).length + last.data.length + (dataOf b).length := by
        rw [e, ← dataOf_length_perm hp, eg, dataOf_append, dataOf_cons, List.length_append, List.length_append]; omega
      constructor
      · constructor
        · intro hd
          have hl := congrArg List.length hd
          rw [List.length_append, hlen] at hl
          have hle := held_le [] a
          rw [List.length_nil, Nat.zero_add] at hle
          have hb : b = [] := by
            rcases b with _ | ⟨y, b⟩
            · rfl
            · exfalso
              have : y.data ≠ [] := hne y (by rw [e]; exact hp.subset (by rw [eg]; simp))
              have := List.length_pos_iff.2 this
              rw [dataOf_cons, List.length_append] at hl
              omega
          subst hb
          rw [List.append_nil] at hq
          obtain ⟨x, y, rfl, hxy⟩ := one_start hq h1 h2
          have hy : ∀ r ∈ y, r.linkControl ≠ 0x02 := fun r hr => by
            rw [h2 r (hxy.subset (by simp [hr]))]; decide
          have hh := held_starts [] x h1 y hy
          have hx : x = [] := by
            rcases x with _ | ⟨z, x⟩
            · rfl
            · exfalso
              have : z.data ≠ [] := hne z (by rw [e]; exact hp.subset (by rw [eg]; simp))
              have := List.length_pos_iff.2 this
              rw [hh, dataOf_append, dataOf_cons, dataOf_cons] at hl
              simp only [List.length_append, dataOf, List.map_nil, List.flatten_nil, List.length_nil] at hl
              omega
          subst hx
          rw [hh] at hd
          refine ⟨by rw [eg, e]; rfl, by rw [eg, e, ← List.cons_append, List.getLast?_concat, List.getLast?_concat], ?_⟩
          rw [eg, ← hd]
          simp [dataOf]
        · rintro ⟨u1, u2, u3⟩
          have hb : b = [] := by
            rcases List.eq_nil_or_concat b with rfl | ⟨b', z, rfl⟩
            · rfl
            · exfalso
              have : z = last := by
                rw [eg, e, List.concat_eq_append, last_of, ← List.cons_append, List.getLast?_concat] at u2
                simpa using u2
              have hz := hn z (by simp)
              rw [this] at hz
              exact hz (.inr h3)
          subst hb
          rw [List.append_nil] at hq
          obtain ⟨x, y, rfl, hxy⟩ := one_start hq h1 h2
          have hx : x = [] := by
            rcases x with _ | ⟨z, x⟩
            · rfl
            · exfalso
              have : z = first := by
                rw [eg, e] at u1
                simpa using u1
              have := h2 z (hxy.subset (by simp))
              rw [‹z = first›, h1] at this
              exact absurd this (by decide)
          subst hx
          have hy : ∀ r ∈ y, r.linkControl ≠ 0x02 := fun r hr => by
            rw [h2 r (hxy.subset (by simp [hr]))]; decide
          rw [held_starts [] [] h1 y hy, ← u3, eg]
          simp [dataOf]
      · rintro ⟨_, u2, _⟩
        rcases List.eq_nil_or_concat b with rfl | ⟨b', z, rfl⟩
        · rfl
        · exfalso
          have : z = last := by
            rw [eg, e, List.concat_eq_append, last_of, ← List.cons_append, List.getLast?_concat] at u2
            simpa using u2
          have hz := hn z (by simp)
          rw [this] at hz
          exact hz (.inr h3)
    refine ⟨?_, fun hu => ?_, hcount⟩
    · rw [hgath, List.head?_cons, Option.some.injEq]
      exact key.1.symm
    · rw [hgath, key.1.2 hu, key.2 hu, List.nil_append]

theorem gathered_all {defs : List ReportDef} (hg : GoodTable defs) (ts : List Transfer) (h : ∀ t ∈ ts, Shuffled defs t) :
    gathered [] (ts.flatMap (·.got)) = ts.map (fun t => dataOf t.sent) ↔ ∀ t ∈ ts, t.Undisturbed := by
  induction ts with
  | nil => simp [gathered]
  | cons t ts ih =>
    have ih := ih fun t ht => h t (.tail _ ht)
    obtain ⟨h1, h2, _⟩ := shuffled_one hg (h t (.head _)) (ts.flatMap (·.got))
    rw [List.flatMap_cons, List.map_cons]
    constructor
    · intro he
      have hu : t.Undisturbed := h1.2 (by rw [he]; rfl)
      rw [h2 hu, List.cons.injEq] at he
      intro u hu'
      rcases List.mem_cons.1 hu' with rfl | hu'
      · exact hu
      · exact (ih.1 he.2) u hu'
    · intro hu
      rw [h2 (hu t (.head _)), ih.2 fun t ht => hu t (.tail _ ht)]

/-- C117, exactly: the frames whose reports arrive in some order are delivered as sent, one by one, just if of each frame the first
report comes first, the last last, and the data of those between is the same in either order. -/
theorem C117_exact_iff (grow : Growth) (defs : List ReportDef) (hg : GoodTable defs) (ts : List Transfer)
    (h : ∀ t ∈ ts, Shuffled defs t) (buf : Slice) :
    (∀ k, readFrames grow defs (ts.length + k) (arrived ts) buf =
      .ret (ts.map (fun t => .ok (dataOf t.sent)) ++ List.replicate k (.error .eof))) ↔ ∀ t ∈ ts, t.Undisturbed := by
  have hparts : ∀ r ∈ ts.flatMap (·.got), Part defs r := by
    intro r hr
    obtain ⟨t, ht, hr⟩ := List.mem_flatMap.1 hr
    exact part_of_written hg (h t ht).1 (h t ht).2.1 r ((h t ht).2.2.subset hr)
  have hlen : (gathered [] (ts.flatMap (·.got))).length = ts.length := by
    rw [gathered_length]
    clear hparts
    induction ts with
    | nil => rfl
    | cons t ts ih =>
      rw [List.flatMap_cons, List.countP_append, ih fun t ht => h t (.tail _ ht), (shuffled_one hg (h t (.head _)) []).2.2,
        List.length_cons]
      omega
  have hr := arriving_parts grow defs hg (ts.flatMap (·.got)) hparts buf
  rw [hlen] at hr
  rw [arrived_map, ← gathered_all hg ts h]
  constructor
  · intro he
    have := he 0
    rw [hr 0] at this
    simp only [List.replicate_zero, List.append_nil, Out.ret.injEq] at this
    have e : (ts.map fun t => (Except.ok (dataOf t.sent) : Except Err Bytes)) = (ts.map fun t => dataOf t.sent).map .ok := by simp
    rw [e] at this
    exact ok_inj _ _ this
  · intro he k
    rw [hr k, he]
    simp

theorem chunks_last {defs : List ReportDef} {first : Bool} {data : Bytes} {rs : List Report} (h : Chunks defs first data rs) :
    ∃ init last rest pad, rs = init ++ [last] ∧ data = dataOf init ++ rest ∧ rest ≠ [] ∧ last.data = rest ++ pad ∧ Zeros pad := by
  induction h with
  | @last first rest d h1 h2 h3 =>
    exact ⟨[], _, rest, _, rfl, by simp [dataOf], h2, rfl, fun b hb => (List.mem_replicate.1 hb).2⟩
  | @more first part rest d rs h1 h2 h3 h4 h5 ih =>
    obtain ⟨init, last, r, pad, e1, e2, e3, e4, e5⟩ := ih
    exact ⟨_ :: init, last, r, pad, by rw [e1]; rfl, by rw [e2, dataOf_cons, List.append_assoc], e3, e4, e5⟩

/-- C117, against: let the first report of a packet come first and the last last, and those in between in any order. The frame is
delivered and `ReadPacket` returns, without complaint, a payload of the same bytes, which is the one sent only if the data of those
reports is the same in either order. -/
theorem C117_unnoticed (grow : Growth) (defs : List ReportDef) (hg : GoodTable defs) (p : Bytes) (h0 : 1 ≤ p.length)
    (h1 : p.length ≤ 65535) (h2 : p.length ≠ 256) (first last : Report) (mid mid' : List Report)
    (hw : Written defs (writePacket [] p).1 (first :: (mid ++ [last]))) (hfirst : 4 ≤ first.data.length) (hp : mid'.Perm mid)
    (buf : Slice) (spare : Bytes) :
    ∃ frame q pad, (∀ k, readFrames grow defs (1 + k) ((first :: (mid' ++ [last])).map .ok) buf =
        .ret (.ok frame :: List.replicate k (.error .eof))) ∧
      readPacket ⟨frame, spare⟩ = .ret (⟨pad, spare⟩, .ok q) ∧ Zeros pad ∧ q.Perm p ∧ (q = p ↔ dataOf mid' = dataOf mid) := by
  obtain ⟨w, hw', he⟩ := writePacket_isPacket p h0 h1 h2
  obtain ⟨hdr, ck, hh, rfl, hs⟩ := hw'
  have hf : (writePacket [] p).1 ≠ [] := by rw [he]; simp
  obtain ⟨init, l, rest, pad, e1, e2, e3, e4, e5⟩ := chunks_last (written_is_chunks hg hf hw)
  obtain ⟨ei, el⟩ := List.append_inj' (show (first :: mid) ++ [last] = init ++ [l] by simpa using e1) rfl
  subst ei
  obtain rfl : last = l := by simpa using el
  rw [dataOf_cons] at e2
  have hhdr : hdr.length ≤ 3 := by
    rcases hh with ⟨b, _, _, rfl⟩ | ⟨hi, lo, _, rfl⟩ <;> simp
  have he' : (writePacket [] p).1 = (0x55 :: hdr) ++ (p ++ [ck]) := by rw [he]; simp
  rw [he'] at e2
  obtain ⟨x, hx⟩ : ∃ x, first.data = (0x55 :: hdr) ++ x := by
    refine ⟨first.data.drop (hdr.length + 1), ?_⟩
    have := congrArg (List.take (hdr.length + 1)) e2
    rw [List.take_left' (by simp), List.append_assoc, List.take_append_of_le_length (by omega)] at this
    rw [this, List.take_append_drop]
  obtain ⟨y, z, hz⟩ : ∃ y z, rest = y ++ [z] := by
    rcases List.eq_nil_or_concat rest with h | ⟨y, z, h⟩
    · exact absurd h e3
    · exact ⟨y, z, by simpa using h⟩
  rw [hx, hz] at e2
  have e6 : p ++ [ck] = (x ++ dataOf mid ++ y) ++ [z] := by
    apply List.append_cancel_left (as := 0x55 :: hdr)
    rw [e2]; simp
  obtain ⟨e7, e8⟩ := List.append_inj' e6 rfl
  obtain rfl : ck = z := by simpa using e8
  have hpd : (dataOf mid').Perm (dataOf mid) := (hp.map _).flatten
  have hlinks := written_shape hg hf hw
  rcases hlinks with ⟨r, e, _⟩ | ⟨f', m', l', e, k1, k2, k3⟩
  · simp at e
  rw [List.cons.injEq] at e
  obtain ⟨rfl, ee⟩ := e
  obtain ⟨rfl, ef⟩ := List.append_inj' ee rfl
  obtain rfl : last = l' := by simpa using ef
  have hpart := part_of_written hg hf hw
  have hparts : ∀ r ∈ first :: (mid' ++ [last]), Part defs r := by
    intro r hr
    refine hpart r ?_
    rcases List.mem_cons.1 hr with rfl | hr
    · exact .head _
    · rcases List.mem_append.1 hr with hr | hr
      · simp [hp.subset hr]
      · simp [List.mem_singleton.1 hr]
  have hg' : gathered [] (first :: (mid' ++ [last])) = [first.data ++ dataOf mid' ++ last.data] := by
    have hne : ∀ r ∈ first :: mid', ¬ Ends r := by
      intro r hr
      rcases List.mem_cons.1 hr with rfl | hr
      · unfold Ends; rw [k1]; decide
      · unfold Ends; rw [k2 r (hp.subset hr)]; decide
    have := held_starts [] [] k1 mid' (fun r hr => by rw [k2 r (hp.subset hr)]; decide)
    rw [← List.cons_append, gathered_run _ _ hne, gathered_end (.inr k3), if_neg (by rw [k3]; decide)]
    rw [List.nil_append] at this
    rw [this]
    rfl
  refine ⟨first.data ++ dataOf mid' ++ last.data, x ++ dataOf mid' ++ y, pad, fun k => ?_, ?_, e5, ?_, ?_⟩
  · have := arriving_parts grow defs hg _ hparts buf k
    rw [hg'] at this
    simpa using this
  · have hq : (x ++ dataOf mid' ++ y).Perm p := by
      rw [e7]
      exact (hpd.append_left x).append_right y
    have hread := C100_exact [] hdr p (x ++ dataOf mid' ++ y) pad spare ck ck (by simp [Filler]) ⟨hdr, ck, hh, rfl, hs⟩ hh hq.length_eq
    rw [if_pos (by unfold SameSum; rw [byteSum_append _ [ck], byteSum_append p [ck], byteSum_perm hq])] at hread
    rw [← hread]
    congr 2
    rw [hx, e4, hz]
    simp
  · rw [e7]
    exact (hpd.append_left x).append_right y
  · rw [e7]
    constructor
    · intro h
      exact List.append_cancel_left (List.append_cancel_right h)
    · intro h; rw [h]

/-- A frame of four reports, and what is made of it when the two in the middle change places: another payload. -/
theorem C117_fails : ∃ (defs : List ReportDef) (p q frame : Bytes) (sent got : List Report), GoodTable defs ∧
    Written defs (writePacket [] p).1 sent ∧ got.Perm sent ∧ got ≠ sent ∧ q ≠ p ∧
    readFrames (fun _ n => 2 * n) defs 2 (got.map .ok) ⟨[], []⟩ = .ret [.ok frame, .error .eof] ∧
    readPacket ⟨frame, []⟩ = .ret (⟨[0, 0], []⟩, .ok q) :=
  ⟨[⟨1, 5, .accIn⟩], [0x00, 0x02, 0x01, 0x02, 0x03, 0x04, 0x05, 0x06, 0x07, 0x08, 0x09],
    [0x00, 0x02, 0x05, 0x06, 0x07, 0x08, 0x01, 0x02, 0x03, 0x04, 0x09],
    [0x55, 0x0B, 0x00, 0x02, 0x05, 0x06, 0x07, 0x08, 0x01, 0x02, 0x03, 0x04, 0x09, 0xC6, 0x00, 0x00],
    [⟨1, 2, [0x55, 0x0B, 0x00, 0x02]⟩, ⟨1, 3, [1, 2, 3, 4]⟩, ⟨1, 3, [5, 6, 7, 8]⟩, ⟨1, 1, [9, 0xC6, 0, 0]⟩],
    [⟨1, 2, [0x55, 0x0B, 0x00, 0x02]⟩, ⟨1, 3, [5, 6, 7, 8]⟩, ⟨1, 3, [1, 2, 3, 4]⟩, ⟨1, 1, [9, 0xC6, 0, 0]⟩],
    ⟨by decide, by decide, by decide, ⟨⟨1, 5, .accIn⟩, by decide, rfl⟩⟩, ⟨16, by decide +kernel⟩, by decide, by decide, by decide,
    by decide +kernel, by decide +kernel⟩

/-- Hypotheses of `C117_unnoticed`. -/
example : ∃ frame q pad, (∀ k, readFrames (fun _ n => 2 * n) [⟨1, 5, .accIn⟩] (1 + k) ((⟨1, 2, [0x55, 0x0B, 0x00, 0x02]⟩ ::
      ([⟨1, 3, [5, 6, 7, 8]⟩, ⟨1, 3, [1, 2, 3, 4]⟩] ++ [⟨1, 1, [9, 0xC6, 0, 0]⟩]) : List Report).map .ok) ⟨[], []⟩ =
        .ret (.ok frame :: List.replicate k (.error .eof))) ∧
      readPacket ⟨frame, []⟩ = .ret (⟨pad, []⟩, .ok q) ∧ Zeros pad ∧ q.Perm [0x00, 0x02, 0x01, 0x02, 0x03, 0x04, 0x05, 0x06, 0x07, 0x08, 0x09] ∧
      (q = [0x00, 0x02, 0x01, 0x02, 0x03, 0x04, 0x05, 0x06, 0x07, 0x08, 0x09] ↔
        dataOf [⟨1, 3, [5, 6, 7, 8]⟩, ⟨1, 3, [1, 2, 3, 4]⟩] = dataOf [⟨1, 3, [1, 2, 3, 4]⟩, ⟨1, 3, [5, 6, 7, 8]⟩]) :=
  C117_unnoticed _ _ ⟨by decide, by decide, by decide, ⟨⟨1, 5, .accIn⟩, by decide, rfl⟩⟩ _ (by decide) (by decide) (by decide) _ _
    [⟨1, 3, [1, 2, 3, 4]⟩, ⟨1, 3, [5, 6, 7, 8]⟩] _ ⟨16, by decide +kernel⟩ (by decide) (by decide) _ _

/-- Hypotheses of `C117_arriving`: of two frames the reports arrive mixed and one of them twice. -/
example : readFrames (fun _ n => 2 * n) [⟨1, 3, .accIn⟩] (2 + 1)
    (([⟨1, 2, [1, 2]⟩, ⟨1, 2, [7, 8]⟩, ⟨1, 1, [3, 0]⟩, ⟨1, 1, [9, 0]⟩] : List Report).map .ok) ⟨[], []⟩ =
    .ret [.ok [7, 8, 3, 0], .ok [9, 0], .error .eof] :=
  C117_arriving _ _ ⟨by decide, by decide, by decide, ⟨⟨1, 3, .accIn⟩, by decide, rfl⟩⟩
    [⟨1, 2, [1, 2]⟩, ⟨1, 2, [7, 8]⟩, ⟨1, 1, [3, 0]⟩, ⟨1, 1, [9, 0]⟩]
    (by
      have a : Written [⟨1, 3, .accIn⟩] [1, 2, 3] [⟨1, 2, [1, 2]⟩, ⟨1, 1, [3, 0]⟩] := ⟨4, by decide⟩
      have b : Written [⟨1, 3, .accIn⟩] [7, 8, 9] [⟨1, 2, [7, 8]⟩, ⟨1, 1, [9, 0]⟩] := ⟨4, by decide⟩
      intro r hr
      simp only [List.mem_cons, List.not_mem_nil, or_false] at hr
      rcases hr with rfl | rfl | rfl | rfl
      · exact ⟨_, _, by decide, a, by simp⟩
      · exact ⟨_, _, by decide, b, by simp⟩
      · exact ⟨_, _, by decide, a, by simp⟩
      · exact ⟨_, _, by decide, b, by simp⟩) _ 1

/-- Hypotheses of `C117_exact_iff`: the reports in the middle change places and carry the same. -/
example : ∀ k, readFrames (fun _ n => 2 * n) [⟨1, 3, .accIn⟩] (1 + k) (arrived [⟨[1, 2, 3, 4, 3, 4, 5],
      [⟨1, 2, [1, 2]⟩, ⟨1, 3, [3, 4]⟩, ⟨1, 3, [3, 4]⟩, ⟨1, 1, [5, 0]⟩], [⟨1, 2, [1, 2]⟩, ⟨1, 3, [3, 4]⟩, ⟨1, 3, [3, 4]⟩, ⟨1, 1, [5, 0]⟩]⟩])
      ⟨[], []⟩ = .ret ([.ok [1, 2, 3, 4, 3, 4, 5, 0]] ++ List.replicate k (.error .eof)) :=
  (C117_exact_iff _ [⟨1, 3, .accIn⟩] ⟨by decide, by decide, by decide, ⟨⟨1, 3, .accIn⟩, by decide, rfl⟩⟩
    [⟨[1, 2, 3, 4, 3, 4, 5], [⟨1, 2, [1, 2]⟩, ⟨1, 3, [3, 4]⟩, ⟨1, 3, [3, 4]⟩, ⟨1, 1, [5, 0]⟩],
      [⟨1, 2, [1, 2]⟩, ⟨1, 3, [3, 4]⟩, ⟨1, 3, [3, 4]⟩, ⟨1, 1, [5, 0]⟩]⟩]
    (by
      intro t ht
      rw [List.mem_singleton.1 ht]
      exact ⟨by decide, ⟨8, by decide⟩, by decide⟩) _).2 (by
      intro t ht
      rw [List.mem_singleton.1 ht]
      exact ⟨rfl, rfl, rfl⟩)

end Props
