import Verif.Lemmas.Course
import Verif.Props.LogTextTrace

/-! Properties of the error texts of the transport (C104). -/

namespace Props
open Go Spec Ipod Ipod.Hid Ipod.Trace Ipod.Log

theorem reportOf_some {b : Bytes} {r : Report} (h : reportOf b = some r) :
    ∃ d0 d, b = r.id :: r.linkControl :: d0 :: d := by
  unfold reportOf at h
  split at h
  · rename_i id lc d ds hb
    cases h
    have := List.take_append_drop 1024 b
    rw [hb] at this
    exact ⟨d, ds ++ b.drop 1024, this.symm⟩
  · cases h

theorem reportOf_none {b : Bytes} : reportOf b = none ↔ b.length < 3 := by
  match b with
  | [] => simp [reportOf]
  | [x] => simp [reportOf]
  | [x, y] => simp [reportOf]
  | x :: y :: z :: t => simp [reportOf]

theorem reportOf_three (id lc d0 : UInt8) (d : Bytes) : ∃ r, reportOf (id :: lc :: d0 :: d) = some r ∧ r.id = id := by
  simp [reportOf]

theorem reportText_good {d : Bytes} (h : ¬ d.length < 3) : reportText (goodT d) = none := by
  rw [reportText, goodT]
  dsimp only
  rw [if_neg h]

theorem reportText_short {d : Bytes} (h : d.length < 3) :
    reportText (goodT d) = some (ascii "multiple Read calls return no data or error") := by
  rw [reportText, goodT]
  dsimp only
  rw [if_pos h]
  decide +kernel

theorem frameText_good {defs : List ReportDef} {b : Bytes} {r : Report} (h : reportOf b = some r) (l : List ReadT) :
    frameText defs (goodT b :: l) =
      match findText defs r.id with
      | some t => some t
      | none => if r.linkControl = linkControlDone ∨ r.linkControl = linkControlContinue then none else frameText defs l := by
  obtain ⟨d0, d, rfl⟩ := reportOf_some h
  rw [frameText, reportText_good (by simp)]
  rfl

theorem frameText_pending {defs : List ReportDef} {bs : List Bytes} (h : Unfinished defs bs) (l : List ReadT) :
    frameText defs (bs.map goodT ++ l) = frameText defs l := by
  obtain ⟨rs, h1, h2⟩ := h
  induction bs generalizing rs with
  | nil => rfl
  | cons b bs ih =>
    cases rs with
    | nil => simp at h1
    | cons r rs =>
      simp only [List.map_cons, List.cons.injEq] at h1
      obtain ⟨⟨x, ha⟩, hE⟩ := h2 r (by simp)
      obtain ⟨dd, hf, _⟩ := accepted_iff.1 ha
      rw [List.map_cons, List.cons_append, frameText_good h1.1, findText, hf]
      dsimp only
      rw [if_neg (show ¬ (r.linkControl = linkControlDone ∨ r.linkControl = linkControlContinue) from hE), ih rs h1.2 fun r hr => h2 r (by simp [hr])]

theorem callSays_text {defs : List ReportDef} {used rest : List ReadT} {x : Bytes} (h : CallSays defs used x) :
    frameText defs (used ++ rest) = some x := by
  cases h with
  | device hu => rw [List.append_assoc, frameText_pending hu]; rfl
  | short hu hl =>
    rw [List.append_assoc, frameText_pending hu, List.singleton_append, frameText, reportText_short hl]
  | @unknown bs id lc d0 d s hu hn hs =>
    rw [List.append_assoc, frameText_pending hu, List.singleton_append]
    obtain ⟨r, h1, rfl⟩ := reportOf_three id lc d0 d
    rw [frameText_good h1, findText, find_none.2 hn]
    dsimp only
    rw [numberText_unique (by omega) hs (formatInt10_text _ (Nat.lt_trans r.id.toNat_lt (by decide)))]

theorem res_good {used : List ReadT} {bs : List Bytes} (h : used.map ReadT.res = bs.map good) : used = bs.map goodT := by
  induction used generalizing bs with
  | nil => cases bs with
    | nil => rfl
    | cons => cases h
  | cons u used ih =>
    cases bs with
    | nil => cases h
    | cons b bs =>
      simp only [List.map_cons, List.cons.injEq] at h ⊢
      obtain ⟨d, e⟩ := u
      cases e with
      | some => simp [ReadT.res, good] at h
      | none =>
        simp only [ReadT.res, good, Option.map_none, ReadRes.mk.injEq, and_true] at h
        exact ⟨by rw [h.1]; rfl, ih h.2⟩

theorem oneCall_says {defs : List ReportDef} {bs : List Bytes} {e : Err} (h : OneCall defs bs (.error e)) :
    ∃ x, CallSays defs (bs.map goodT) x := by
  cases h with
  | @notReport bs b h1 h2 =>
    rw [List.map_append]
    exact ⟨_, .short h1 (reportOf_none.1 h2)⟩
  | @unknown bs b r h1 h2 h3 =>
    rw [List.map_append]
    obtain ⟨d0, d, rfl⟩ := reportOf_some h2
    exact ⟨_, .unknown h1 h3 (formatInt10_text _ (Nat.lt_trans r.id.toNat_lt (by decide)))⟩

theorem readCall_says {defs : List ReportDef} {used : List ReadT} {e : Err} (h : ReadCall defs (used.map ReadT.res) (.error e)) :
    ∃ x, CallSays defs used x := by
  generalize hl : used.map ReadT.res = l at h
  generalize hx : (Except.error e : Except Err Bytes) = y at h
  cases h with
  | call h1 =>
    subst hx
    rw [res_good hl]
    exact oneCall_says h1
  | @failed bs d e' h1 =>
    obtain ⟨u1, u2, rfl, h2, h3⟩ := List.map_eq_append_iff.1 hl
    rw [res_good h2]
    match u2, h3 with
    | [⟨d', some f⟩], h3 => exact ⟨_, .device h1⟩
    | [⟨d', none⟩], h3 => simp [ReadT.res] at h3

theorem callSays_unique {defs : List ReportDef} {used : List ReadT} {x x' : Bytes} (h : CallSays defs used x) (h' : CallSays defs used x') :
    x = x' := by
  have h1 := callSays_text (rest := []) h
  rw [callSays_text (rest := []) h'] at h1
  exact (Option.some.inj h1).symm

theorem readCall_ne_nil {defs : List ReportDef} {used : List ReadRes} {x : Except Err Bytes} (h : ReadCall defs used x) : used ≠ [] := by
  cases h with
  | call h =>
    have := oneCall_ne_nil h
    simpa using this
  | failed => simp

theorem readFrame_rest {grow : Growth} {defs : List ReportDef} {rs : List ReadT} {buf b : Slice} {rest : List (Except Err Report)}
    {y : Except Err Slice} (hr : readFrame grow defs (rs.map fun r => rawReadReport r.res) buf = .ret (rest, b, y)) :
    (rs.drop (rs.length - rest.length)).map (fun r => rawReadReport r.res) = rest := by
  have hr' : readFrameLoop grow defs ((rs.map ReadT.res).map rawReadReport) buf.reset = .ret (rest, b, y) := by
    rw [← hr, readFrame, List.map_map]; rfl
  rcases loop_call (rs.map ReadT.res) buf.reset (by simp [Slice.reset]) hr' with ⟨rfl, bs, h4, h5⟩ | ⟨used, rest2, h4, rfl, h5⟩
  · obtain ⟨b2, h6⟩ := unfinished_reads (grow := grow) h5 buf
    have hraw : (rs.map fun r => rawReadReport r.res) = bs.map rawOf := by
      rw [res_good h4, List.map_map]
      exact List.map_congr_left fun b _ => raw_good b
    rw [hraw, h6] at hr
    simp only [Out.ret.injEq, Prod.mk.injEq] at hr
    rw [← hr.1]
    simp
  · obtain ⟨u1, u2, rfl, rfl, rfl⟩ := List.map_eq_append_iff.1 h4
    simp

/-- C104. A call of `ReadFrame`: there was nothing more to read, or it is a frame, or what the error says is its cause. -/
theorem C104_frame {grow : Growth} {defs : List ReportDef} {rs rest : List ReadT} {buf b : Slice} {x : Except Fault Slice}
    (h : readFrameT grow defs rs buf = .ret (rest, b, x)) :
    (x = .error ⟨.eof, ascii "EOF"⟩ ∧ rest = [] ∧ ∃ bs, rs = bs.map goodT ∧ Unfinished defs bs) ∨
    ∃ used, rs = used ++ rest ∧
      ((∃ f, x = .ok f ∧ ReadCall defs (used.map ReadT.res) (.ok f.data)) ∨
        ∃ f, x = .error f ∧ ReadCall defs (used.map ReadT.res) (.error f.err) ∧ CallSays defs used f.text) := by
  rw [readFrameT] at h
  cases hr : readFrame grow defs (rs.map fun r => rawReadReport r.res) buf with
  | panic => rw [hr] at h; cases h
  | ret y =>
    obtain ⟨rest', b', y⟩ := y
    rw [hr] at h
    simp only [Out.bind_ret, Out.ret.injEq, Prod.mk.injEq] at h
    obtain ⟨h1, h2, h3⟩ := h
    have hr' : readFrameLoop grow defs ((rs.map ReadT.res).map rawReadReport) buf.reset = .ret (rest', b', y) := by
      rw [← hr, readFrame, List.map_map]; rfl
    rcases loop_call (rs.map ReadT.res) buf.reset (by simp [Slice.reset]) hr' with ⟨rfl, bs, h4, h5⟩ | ⟨used, rest2, h4, rfl, h5⟩
    · left
      have e := res_good h4
      obtain ⟨b2, h6⟩ := unfinished_reads (grow := grow) h5 buf
      have hraw : (rs.map fun r => rawReadReport r.res) = bs.map rawOf := by
        rw [e, List.map_map]
        exact List.map_congr_left fun b _ => raw_good b
      rw [hraw, h6] at hr
      simp only [Out.ret.injEq, Prod.mk.injEq] at hr
      refine ⟨?_, ?_, bs, e, h5⟩
      · rw [← h3]
        have ht : frameText defs rs = some (ascii "EOF") := by
          have := frameText_pending h5 []
          rw [List.append_nil] at this
          rw [e, this, frameText, plain_eof]
        rw [ht]
        rfl
      · rw [← h1, ← hr.1]
        simp
    · right
      obtain ⟨u1, u2, rfl, rfl, rfl⟩ := List.map_eq_append_iff.1 h4
      have hrest : rest = u2 := by
        rw [← h1]
        simp
      subst hrest
      refine ⟨u1, rfl, ?_⟩
      cases y with
      | ok f => exact .inl ⟨f, h3.symm, h5⟩
      | error e =>
        obtain ⟨t, ht⟩ := readCall_says h5
        refine .inr ⟨_, h3.symm, h5, ?_⟩
        dsimp only
        rw [callSays_text ht]
        exact ht

/-- C104. All calls on what the device gives: frames, and errors that say their cause. -/
theorem C104_frames {grow : Growth} {defs : List ReportDef} (n : Nat) (rs : List ReadT) (hn : rs.length ≤ n) (buf : Slice)
    {xs : List (Except Fault Slice)} (h : frameReadsT grow defs n rs buf = .ret xs) : HeardT defs rs xs ∧ xs.length = n := by
  induction n generalizing rs buf xs with
  | zero =>
    cases h
    have : rs = [] := List.length_eq_zero_iff.1 (by omega)
    subst this
    exact ⟨.rest (bs := []) (n := 0) unfinished_nil, rfl⟩
  | succ n ih =>
    rw [frameReadsT] at h
    cases h1 : readFrameT grow defs rs buf with
    | panic => rw [h1] at h; cases h
    | ret y =>
      obtain ⟨rest, b, x⟩ := y
      rw [h1] at h
      simp only [Out.bind_ret] at h
      cases h2 : frameReadsT grow defs n rest b with
      | panic => rw [h2] at h; cases h
      | ret more =>
        rw [h2] at h
        simp only [Out.bind_ret, Out.ret.injEq] at h
        subst h
        rcases C104_frame h1 with ⟨rfl, rfl, bs, rfl, h3⟩ | ⟨used, rfl, h3⟩
        · obtain ⟨h4, h5⟩ := ih [] (by simp) b h2
          have : more = List.replicate n (.error ⟨.eof, ascii "EOF"⟩) := by
            clear ih h1 h2 hn
            generalize hrs : ([] : List ReadT) = l at h4
            cases h4 with
            | @rest bs' n' =>
              simp only [List.length_replicate] at h5
              rw [h5]
            | @frame used rest f fs h6 =>
              have := readCall_ne_nil h6
              simp at this
              cases used with
              | nil => exact absurd rfl this
              | cons => cases hrs
            | @error used rest f fs h6 =>
              have := readCall_ne_nil h6
              simp at this
              cases used with
              | nil => exact absurd rfl this
              | cons => cases hrs
          subst this
          exact ⟨.rest (n := n + 1) h3, by simp⟩
        · have hpos : used ≠ [] := by
            rcases h3 with ⟨f, _, h3⟩ | ⟨f, _, h3, _⟩
            · simpa using readCall_ne_nil h3
            · simpa using readCall_ne_nil h3
          have := List.length_pos_iff.2 hpos
          simp only [List.length_append] at hn
          obtain ⟨h4, h5⟩ := ih rest (by omega) b h2
          refine ⟨?_, by simp [h5]⟩
          rcases h3 with ⟨f, rfl, h3⟩ | ⟨f, rfl, h3, h6⟩
          · exact .frame h3 h4
          · exact .error h3 h6 h4

/-- The result without the text. -/
def unsaid {α : Type} : Except Fault α → Except Err α
  | .ok x => .ok x
  | .error f => .error f.err

/-- C104. The texts apart, frames are read as before. -/
theorem C104_frames_same (grow : Growth) (defs : List ReportDef) (n : Nat) (rs : List ReadT) (buf : Slice) :
    (frameReadsT grow defs n rs buf >>= fun xs => .ret (xs.map unsaid)) =
      frameReads grow defs n (rs.map fun r => rawReadReport r.res) buf := by
  induction n generalizing rs buf with
  | zero => rfl
  | succ n ih =>
    rw [frameReadsT, frameReads, readFrameT]
    cases hr : readFrame grow defs (rs.map fun r => rawReadReport r.res) buf with
    | panic => rfl
    | ret y =>
      obtain ⟨rest', b', y⟩ := y
      simp only [Out.bind_ret]
      have hsuf := readFrame_rest hr
      have ih := ih (rs.drop (rs.length - rest'.length)) b'
      rw [hsuf] at ih
      rw [← ih]
      cases frameReadsT grow defs n (rs.drop (rs.length - rest'.length)) b' with
      | panic => rfl
      | ret more => cases y <;> rfl

/-- A report with an id that is in no table, a report without data, a failing device, a frame. -/
example : frameReadsT (fun _ n => n) defaultReportDefs 4 [⟨[0x63, 0, 1, 2], none⟩, ⟨[1], none⟩, ⟨[], some ⟨.other 5, ascii "read /dev/iap0: no such device"⟩⟩,
      ⟨[1, 0, 0x55, 2], none⟩] ⟨[], []⟩ =
    .ret [.error ⟨Err.noReport, ascii "report id no found: 99"⟩, .error ⟨.noProgress, ascii "multiple Read calls return no data or error"⟩,
      .error ⟨.other 5, ascii "read /dev/iap0: no such device"⟩, .ok ⟨[0x55, 2], List.replicate 62 0⟩] := by decide +kernel

end Props
