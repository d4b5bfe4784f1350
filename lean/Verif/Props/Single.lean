import Verif.Spec.Single
import Verif.Lemmas.Hid
import Verif.Props.Hid

/-! Properties of decoding one report held in memory (C106), and of the encoder with any table (C31). -/

namespace Props
open Go Spec Ipod Ipod.Hid

/-- C106, the reader: it returns the first byte as the id, the second as the link control and the rest as the data. -/
theorem C106_report (s : Bytes) (r : Report) : singleReadReport s = .ret r ↔ IsSingle s r := by
  obtain ⟨id, lc, data⟩ := r
  match s with
  | [] => simp [singleReadReport, IsSingle, index]
  | [a] => simp [singleReadReport, IsSingle, index]
  | a :: b :: d => simp [singleReadReport, IsSingle, index, dropOrPanic]

/-- C106, the reader panics on less than two bytes. -/
theorem C106_short (s : Bytes) : singleReadReport s = .panic ↔ s.length < 2 := by
  match s with
  | [] => simp [singleReadReport, index]
  | [a] => simp [singleReadReport, index]
  | a :: b :: d => simp [singleReadReport, index, dropOrPanic]

theorem round_accepted (grow : Growth) {defs : List ReportDef} {r : Report} {b : Bytes} (h : Accepted defs r b) (buf : Slice) :
    decodeRound grow defs r buf =
      if r.linkControl = 0x00 then .ret (.returned (buf.reset.write grow b) (.ok (buf.reset.write grow b)))
      else if r.linkControl = 0x02 then .ret (.looping (buf.reset.write grow b))
      else if r.linkControl = 0x03 then .ret (.looping (buf.write grow b))
      else if r.linkControl = 0x01 then .ret (.returned (buf.write grow b) (.ok (buf.write grow b)))
      else .ret (.looping buf) := by
  obtain ⟨d, h1, h2, rfl⟩ := accepted_iff.1 h
  have ht : r.data.take (min r.data.length d.maxPayload.toNat) = r.data.take d.maxPayload.toNat := by
    rw [Nat.min_comm, ← List.take_take, List.take_length]
  rw [decodeRound, h1]
  simp only [if_neg (show ¬ d.maxPayload < 0 by omega), ht]
  rfl

/-- C106, a report that is a frame by itself, or the last one of a frame: every call returns its payload. -/
theorem C106_frame (grow : Growth) {defs : List ReportDef} {s : Bytes} {r : Report} {b : Bytes} (h : IsSingle s r) (ha : Accepted defs r b)
    (he : Ends r) (n : Nat) (buf : Slice) : ∃ f, singleReadFrame grow defs s (n + 1) buf = .ret (.returned f (.ok f)) ∧ f.data = b := by
  rw [singleReadFrame, singleRounds, (C106_report s r).2 h, Out.bind_ret, round_accepted grow ha]
  rcases he with he | he
  · rw [if_pos he]
    exact ⟨_, rfl, by simp⟩
  · rw [if_neg (by rw [he]; decide), if_neg (by rw [he]; decide), if_neg (by rw [he]; decide), if_pos he]
    exact ⟨_, rfl, by simp⟩

/-- C106, an unknown report: every call returns an error. -/
theorem C106_unknown (grow : Growth) {defs : List ReportDef} {s : Bytes} {r : Report} (h : IsSingle s r) (hn : ∀ d ∈ defs, d.id ≠ r.id.toNat)
    (n : Nat) (buf : Slice) : ∃ f, singleReadFrame grow defs s (n + 1) buf = .ret (.returned f (.error Err.noReport)) := by
  rw [singleReadFrame, singleRounds, (C106_report s r).2 h, Out.bind_ret, decodeRound, find_none.2 hn]
  exact ⟨_, rfl⟩

/-- C106, any other report: the call never returns; `heldAfter` is in the decoder's buffer. -/
theorem C106_never (grow : Growth) {defs : List ReportDef} {s : Bytes} {r : Report} {b : Bytes} (h : IsSingle s r) (ha : Accepted defs r b)
    (he : ¬ Ends r) (n : Nat) (buf : Slice) : ∃ f, singleReadFrame grow defs s n buf = .ret (.looping f) ∧ f.data = heldAfter r b n := by
  have h0 : r.linkControl ≠ 0x00 := fun h => he (.inl h)
  have h1 : r.linkControl ≠ 0x01 := fun h => he (.inr h)
  have key : ∀ n (c : Slice), ∃ f, singleRounds grow defs s n c = .ret (.looping f) ∧
      f.data = if n = 0 then c.data else if r.linkControl = 0x02 then b else if r.linkControl = 0x03 then c.data ++ (List.replicate n b).flatten else c.data := by
    intro n
    induction n with
    | zero => intro c; exact ⟨c, rfl, rfl⟩
    | succ n ih =>
      intro c
      rw [singleRounds, (C106_report s r).2 h, Out.bind_ret, round_accepted grow ha, if_neg h0]
      by_cases h2 : r.linkControl = 0x02
      · rw [if_pos h2]
        obtain ⟨f, h5, h6⟩ := ih (c.reset.write grow b)
        refine ⟨f, h5, ?_⟩
        rw [h6]
        by_cases hn : n = 0 <;> simp [hn, h2]
      · rw [if_neg h2]
        by_cases h3 : r.linkControl = 0x03
        · rw [if_pos h3]
          obtain ⟨f, h5, h6⟩ := ih (c.write grow b)
          refine ⟨f, h5, ?_⟩
          rw [h6]
          by_cases hn : n = 0 <;> simp [hn, h3, List.replicate_succ]
        · rw [if_neg h3, if_neg h1]
          obtain ⟨f, h5, h6⟩ := ih c
          refine ⟨f, h5, ?_⟩
          rw [h6]
          by_cases hn : n = 0 <;> simp [hn, h2, h3]
  obtain ⟨f, h5, h6⟩ := key n buf.reset
  refine ⟨f, h5, ?_⟩
  rw [h6, heldAfter]
  simp

/-- C106: a call returns, on a report of a known kind, iff the report ends a frame. -/
theorem C106_returns_iff (grow : Growth) {defs : List ReportDef} {s : Bytes} {r : Report} {b : Bytes} (h : IsSingle s r) (ha : Accepted defs r b)
    (buf : Slice) : (∃ n f x, singleReadFrame grow defs s n buf = .ret (.returned f x)) ↔ Ends r := by
  constructor
  · rintro ⟨n, f, x, hx⟩
    apply Classical.byContradiction
    intro he
    obtain ⟨f', h1, _⟩ := C106_never grow h ha he n buf
    rw [h1] at hx
    cases hx
  · intro he
    obtain ⟨f, h1, _⟩ := C106_frame grow h ha he 0 buf
    exact ⟨_, _, _, h1⟩

/-- C106: a report that goes on, with a payload, fills the memory: there is no bound on what the decoder holds. -/
theorem C106_grows (grow : Growth) {defs : List ReportDef} {s : Bytes} {r : Report} {b : Bytes} (h : IsSingle s r) (ha : Accepted defs r b)
    (hc : r.linkControl = 0x03) (hb : b ≠ []) (bound : Nat) (buf : Slice) :
    ∃ n f, singleReadFrame grow defs s n buf = .ret (.looping f) ∧ bound < f.data.length := by
  obtain ⟨f, h1, h2⟩ := C106_never grow h ha (by rintro (h | h) <;> rw [hc] at h <;> cases h) (bound + 1) buf
  refine ⟨_, f, h1, ?_⟩
  rw [h2, heldAfter, if_neg (by omega), if_neg (by rw [hc]; decide), if_pos hc]
  have : 1 ≤ b.length := by
    cases b with
    | nil => exact absurd rfl hb
    | cons => simp
  have h3 := Nat.mul_le_mul_left (bound + 1) this
  simp only [List.length_flatten, List.map_replicate, List.sum_replicate_nat] at *
  omega

/-- C106: it is the decoder of C33, given the same report over and over. -/
theorem C106_same (grow : Growth) (defs : List ReportDef) {s : Bytes} {r : Report} (h : IsSingle s r) (n : Nat) (buf : Slice) :
    (∃ b f, singleReadFrame grow defs s n buf = .ret (.returned b (.ok f))) ↔
      ∃ rest b f, readFrame grow defs (List.replicate n (.ok r)) buf = .ret (rest, b, .ok f) := by
  have key : ∀ n (c : Slice), (∃ b f, singleRounds grow defs s n c = .ret (.returned b (.ok f))) ↔
      ∃ rest b f, readFrameLoop grow defs (List.replicate n (.ok r)) c = .ret (rest, b, .ok f) := by
    intro n
    induction n with
    | zero => intro c; simp [singleRounds, readFrameLoop]
    | succ n ih =>
      intro c
      rw [singleRounds, (C106_report s r).2 h, Out.bind_ret, List.replicate_succ, readFrameLoop, decodeRound]
      cases find defs r.id.toNat with
      | none => simp
      | some d =>
        simp only
        by_cases hp : d.maxPayload < 0
        · simp [if_pos hp]
        · simp only [if_neg hp]
          by_cases h0 : r.linkControl = linkControlDone
          · simp [if_pos h0]
          · simp only [if_neg h0]
            by_cases h2 : r.linkControl = linkControlMoreToFollow
            · simp only [if_pos h2, Out.bind_ret]; exact ih _
            · simp only [if_neg h2]
              by_cases h3 : r.linkControl = linkControlContinue ||| linkControlMoreToFollow
              · simp only [if_pos h3, Out.bind_ret]; exact ih _
              · simp only [if_neg h3]
                by_cases h1 : r.linkControl = linkControlContinue
                · simp [if_pos h1]
                · simp only [if_neg h1, Out.bind_ret]; exact ih _
  exact key n buf.reset

/-- A report that ends the frame it begins. -/
example (grow : Growth) (n : Nat) (buf : Slice) :
    (∃ b f, singleReadFrame grow legacyReportDefs [0x12, 0x00, 0x55, 0x28] n buf = .ret (.returned b (.ok f))) ↔
      ∃ rest b f, readFrame grow legacyReportDefs (List.replicate n (.ok ⟨0x12, 0x00, [0x55, 0x28]⟩)) buf = .ret (rest, b, .ok f) :=
  C106_same grow legacyReportDefs (s := [0x12, 0x00, 0x55, 0x28]) (r := ⟨0x12, 0x00, [0x55, 0x28]⟩) rfl n buf

/-- A device that gives the same report at every read: one that is a whole frame, one whose id the table does not have. -/
example (n : Nat) : (∃ f, singleReadFrame (fun _ n => 2 * n) legacyReportDefs [0x12, 0x00, 0x55, 0x28] (n + 1) ⟨[], []⟩ =
      .ret (.returned f (.ok f)) ∧ f.data = [0x55, 0x28]) ∧
    ∃ f, singleReadFrame (fun _ n => 2 * n) defaultReportDefs [0x12, 0x00, 0x55, 0x28] (n + 1) ⟨[], []⟩ =
      .ret (.returned f (.error Err.noReport)) :=
  ⟨C106_frame _ (r := ⟨0x12, 0x00, [0x55, 0x28]⟩) rfl (accepted_iff.2 (by decide +kernel)) (.inl rfl) n _,
    C106_unknown _ (r := ⟨0x12, 0x00, [0x55, 0x28]⟩) rfl (by decide) n _⟩

/-- One that goes on for ever. -/
example (n bound : Nat) : (∃ f, singleReadFrame (fun _ n => 2 * n) legacyReportDefs [0x12, 0x03, 0x55, 0x28] n ⟨[], []⟩ = .ret (.looping f) ∧
      f.data = heldAfter ⟨0x12, 0x03, [0x55, 0x28]⟩ [0x55, 0x28] n) ∧
    (¬ ∃ n f x, singleReadFrame (fun _ n => 2 * n) legacyReportDefs [0x12, 0x03, 0x55, 0x28] n ⟨[], []⟩ = .ret (.returned f x)) ∧
    ∃ n f, singleReadFrame (fun _ n => 2 * n) legacyReportDefs [0x12, 0x03, 0x55, 0x28] n ⟨[], []⟩ = .ret (.looping f) ∧
      bound < f.data.length :=
  have ha : Accepted legacyReportDefs ⟨0x12, 0x03, [0x55, 0x28]⟩ [0x55, 0x28] := accepted_iff.2 (by decide +kernel)
  ⟨C106_never _ (r := ⟨0x12, 0x03, [0x55, 0x28]⟩) rfl ha (by decide) n _,
    fun h => absurd ((C106_returns_iff _ (r := ⟨0x12, 0x03, [0x55, 0x28]⟩) rfl ha _).1 h) (by decide),
    C106_grows _ (r := ⟨0x12, 0x03, [0x55, 0x28]⟩) rfl ha rfl (by decide) bound _⟩

/-- A report like that of the project's benchmark: in the legacy table it is a frame by itself (with a link control of 3 it never ends);
in the default table, which the benchmark uses, there is no such report. -/
example : IsSingle [0x12, 0x00, 0x55, 0x28] ⟨0x12, 0x00, [0x55, 0x28]⟩ ∧ (∃ b, Accepted legacyReportDefs ⟨0x12, 0x00, [0x55, 0x28]⟩ b) ∧
    Ends ⟨0x12, 0x00, [0x55, 0x28]⟩ ∧
    (∃ b, b ≠ [] ∧ Accepted legacyReportDefs ⟨0x12, 0x03, [0x55, 0x28]⟩ b) ∧ ¬ Ends ⟨0x12, 0x03, [0x55, 0x28]⟩ ∧
    (∀ d ∈ defaultReportDefs, d.id ≠ (0x12 : Nat)) :=
  ⟨rfl, ⟨[0x55, 0x28], accepted_iff.2 (by decide +kernel)⟩, .inl rfl, ⟨[0x55, 0x28], by decide, accepted_iff.2 (by decide +kernel)⟩,
    by decide, by decide⟩

/-- C31, any table at all, with any writer: each report handed to the writer is of a definition for that direction; its id byte is
the id modulo 256, and it is filled. -/
theorem C31_any_table (fuel : Nat) (defs : List ReportDef) (fails : Fails) (data : Bytes) {rs : List Report} {e : Option Err}
    (h : writeFrameFor fuel defs fails [] data = some (.ret (rs, e))) :
    ∀ r ∈ rs, ∃ d ∈ defs, d.dir = .accIn ∧ (r.id.toNat : Int) = d.id % 256 ∧ (r.data.length : Int) = d.maxPayload := by
  have key : ∀ fuel (log : List Report) offset left, writeFrameLoop defs fails data fuel log offset left = some (.ret (rs, e)) →
      (∀ r ∈ log, ∃ d ∈ defs, d.dir = .accIn ∧ (r.id.toNat : Int) = d.id % 256 ∧ (r.data.length : Int) = d.maxPayload) →
      ∀ r ∈ rs, ∃ d ∈ defs, d.dir = .accIn ∧ (r.id.toNat : Int) = d.id % 256 ∧ (r.data.length : Int) = d.maxPayload := by
    intro fuel
    induction fuel with
    | zero => intro log offset left h; cases h
    | succ fuel ih =>
      intro log offset left h hl
      rw [writeFrameLoop] at h
      by_cases h0 : left = 0
      · rw [if_pos h0] at h
        cases h
        exact hl
      · rw [if_neg h0] at h
        cases hp : pick defs left .accIn with
        | none => rw [hp] at h; cases h; exact hl
        | some d =>
          rw [hp] at h
          simp only at h
          by_cases hm : d.maxPayload < 0
          · rw [if_pos hm] at h; cases h
          · rw [if_neg hm] at h
            obtain ⟨p1, p2⟩ := pick_some hp
            have hid : ((byteOfInt d.id).toNat : Int) = d.id % 256 := by
              simp only [byteOfInt, UInt8.toNat_ofNat']
              omega
            have hlen : ∀ part : Bytes, part.length ≤ d.maxPayload.toNat →
                ((part ++ List.replicate (d.maxPayload.toNat - part.length) 0).length : Int) = d.maxPayload := by
              intro part hpart
              simp only [List.length_append, List.length_replicate]
              omega
            have hpart : ((data.drop offset).take (if left > d.maxPayload.toNat then d.maxPayload.toNat else left)).length ≤ d.maxPayload.toNat := by
              rw [List.length_take]
              by_cases hc : left > d.maxPayload.toNat
              · rw [if_pos hc]; omega
              · rw [if_neg hc]; omega
            have hnew : ∀ lc, ∀ r ∈ log ++ [(⟨byteOfInt d.id, lc,
                (data.drop offset).take (if left > d.maxPayload.toNat then d.maxPayload.toNat else left) ++ List.replicate (d.maxPayload.toNat -
                  ((data.drop offset).take (if left > d.maxPayload.toNat then d.maxPayload.toNat else left)).length) 0⟩ : Report)],
                ∃ d ∈ defs, d.dir = .accIn ∧ (r.id.toNat : Int) = d.id % 256 ∧ (r.data.length : Int) = d.maxPayload := by
              intro lc r hr
              rcases List.mem_append.1 hr with hr | hr
              · exact hl r hr
              · rw [List.mem_singleton] at hr
                subst hr
                exact ⟨d, p1, p2, hid, hlen _ hpart⟩
            cases hf : fails log.length with
            | some err =>
              rw [hf] at h
              simp only [Option.some.injEq, Out.ret.injEq, Prod.mk.injEq] at h
              rw [← h.1]
              exact hnew _
            | none =>
              rw [hf] at h
              exact ih _ _ _ h (hnew _)
  exact key fuel [] 0 data.length h (by simp)

example : ∀ r ∈ [(⟨0x01, 0x02, [0x55, 0x01]⟩ : Report), ⟨0x01, 0x01, [0x02, 0x00]⟩],
    ∃ d ∈ [(⟨0x101, 3, .accIn⟩ : ReportDef)], d.dir = .accIn ∧ (r.id.toNat : Int) = d.id % 256 ∧ (r.data.length : Int) = d.maxPayload :=
  C31_any_table 5 [⟨0x101, 3, .accIn⟩] (fun _ => none) [0x55, 0x01, 0x02] (e := none) (by decide +kernel)

/-- A table with an id beyond a byte. -/
example : writeFrameFor 5 [⟨0x101, 3, .accIn⟩] (fun _ => none) [] [0x55, 0x01, 0x02] =
    some (.ret ([⟨0x01, 0x02, [0x55, 0x01]⟩, ⟨0x01, 0x01, [0x02, 0x00]⟩], none)) := by decide +kernel

end Props
