import Verif.Lemmas.View
import Verif.Props.Replay

/-! # Property C58: viewing a trace -/

namespace Props
open Go Spec Ipod Ipod.Hid Ipod.Trace

theorem readMsgLoop_dir {r : Reader} {m : Msg} {r' : Reader} {m' : Msg} (h : readMsgLoop r m = (r', m', none)) :
    m'.dir = 0 ∨ m'.dir = 1 := by
  fun_induction readMsgLoop r m with
  | case1 r text rest hs h0 ih => exact ih h
  | case2 => simp at h
  | case3 r text rest hs h0 r2 m2 hm =>
    simp only [Prod.mk.injEq] at h
    rw [← h.2.1]
    obtain ⟨⟨sign, c, rest, ws, digits, tail, _, _, hs, _⟩, _⟩ := (msgUnmarshal_iff _ _ _).1 hm
    simp only
    unfold signOf at hs
    split at hs
    · left; assumption
    · split at hs
      · right; assumption
      · cases hs
  | case4 => simp at h
  | case5 => simp at h

theorem loadTrace_dirs {r : Reader} {ms : List Msg} (h : loadTrace r = .ok ms) : ∀ m ∈ ms, m.dir = 0 ∨ m.dir = 1 := by
  fun_induction loadTrace r generalizing ms with
  | case1 => cases h; simp
  | case2 => cases h
  | case3 r hr r' m hl ms' hms ih =>
    cases h
    intro x hx
    rcases List.mem_cons.1 hx with rfl | hx
    · exact readMsgLoop_dir hl
    · exact ih hms x hx
  | case4 => cases h
  | case5 => cases h; simp
  | case6 => cases h

theorem enqueueAll_rel {mem : Ptr → Msg} (ps : List Ptr) (hv : ∀ p ∈ ps, (mem p).dir = 0 ∨ (mem p).dir = 1) {q : Queue}
    {l : List Ptr} (h : QRel mem q l) : ∃ q', enqueueAll mem ps q = .ret q' ∧ QRel mem q' (l ++ ps) := by
  induction ps generalizing q l with
  | nil => exact ⟨q, rfl, by simpa using h⟩
  | cons p ps ih =>
    obtain ⟨q1, h1, h2⟩ := queueStep_rel h (.enqueue p) (hv p (by simp))
    rw [queueStep] at h1
    cases he : q.enqueue mem p with
    | panic => rw [he] at h1; cases h1
    | ret q2 =>
      rw [he] at h1
      simp only [Out.bind_ret, Out.ret.injEq, Prod.mk.injEq] at h1
      rw [h1.1] at he
      obtain ⟨q', h3, h4⟩ := ih (fun p hp => hv p (by simp [hp])) (l := l ++ [p]) h2
      exact ⟨q', by rw [enqueueAll, he]; exact h3, by simpa using h4⟩

theorem range_map_get (ms : List Msg) : (List.range ms.length).map (fun p => (ms[p]?).getD Msg.zero) = ms := by
  apply List.ext_getElem
  · simp
  · intro i h1 h2
    simp [List.getElem?_eq_getElem h2]

theorem dumpTrace_loop {r : Reader} {ms : List Msg} (h : loadTrace r = .ok ms) (grow : Growth) (defs : List ReportDef)
    (fuel : Nat) : ∃ (mem : Ptr → Msg) (q : Queue) (l : List Ptr), l.map mem = ms ∧ QRel mem q l ∧
      dumpTrace grow defs fuel r = .ok (dumpLoop grow defs mem fuel q false) := by
  have h0 : QRel (fun p => (ms[p]?).getD Msg.zero) Queue.empty [] :=
    ⟨rfl, rfl, rfl, by simp [Queue.empty], by simp [Queue.empty], by simp [Queue.empty]⟩
  obtain ⟨q, h1, h2⟩ := enqueueAll_rel (List.range ms.length) (fun p hp => by
    have : p < ms.length := List.mem_range.1 hp
    simp only [List.getElem?_eq_getElem this, Option.getD_some]
    exact loadTrace_dirs h _ (List.getElem_mem _)) h0
  refine ⟨_, q, List.range ms.length, range_map_get ms, by simpa using h2, ?_⟩
  rw [dumpTrace, h]
  simp only [h1, Out.bind_ret]

/-- C58, loading. The viewer gets the messages of a written trace: all of them, in order. -/
theorem C58_loads (ms : List Msg) (h : ∀ m ∈ ms, Traceable m) :
    loadTrace (newReader (writeMsgs [] ms) none) = .ok (ms.zipIdx.map fun p => ⟨p.1.dir, UInt64.ofNat p.2, p.1.data⟩) := by
  rw [writeMsgs_text ms (fun m hm => ⟨(h m hm).1, by have := (h m hm).2.1; intro h0; rw [h0] at this; simp at this⟩)]
  rw [List.nil_append, newReader]
  suffices ∀ i, loadTrace ⟨traceText ms, none, none, UInt64.ofNat i⟩ =
      .ok ((ms.zipIdx i).map fun p => ⟨p.1.dir, UInt64.ofNat p.2, p.1.data⟩) from this 0
  induction ms with
  | nil =>
    intro i
    rw [loadTrace]
    simp only [traceText]
    split <;> rename_i he <;> rw [readMsgLoop] at he
    · simp [scanLine] at he
    · simp [scanLine] at he
      simp [← he.2.2]
  | cons m ms ih =>
    intro i
    have e := readMsgLoop_line (m0 := Msg.zero) (h m (by simp)) (traceText ms) none none (UInt64.ofNat i)
    have := ih (fun x hx => h x (by simp [hx])) (i + 1)
    rw [show traceText (m :: ms) = lineOf ((signOf m.dir).getD 0) m.data ++ 0x0A :: traceText ms by simp [traceText], loadTrace]
    simp only
    split <;> rename_i he <;> rw [e] at he
    · simp only [Prod.mk.injEq] at he
      rw [← he.1, ← he.2.1, show UInt64.ofNat i + 1 = UInt64.ofNat (i + 1) by simp, this]
      simp
    · cases he

/-- C58 (partial: what the viewer does). On every trace it can read, the viewer either panics or terminates (after at most
as many rounds as there are messages), having shown the frames as `Viewing` says and in each the commands of its packets. -/
theorem C58_view_partial {r : Reader} {ms : List Msg} (h : loadTrace r = .ok ms) (grow : Growth) (defs : List ReportDef)
    (fuel : Nat) (hf : ms.length < fuel) :
    dumpTrace grow defs fuel r = .ok .panic ∨
    ∃ evs, dumpTrace grow defs fuel r = .ok (.ret (some evs)) ∧
      Viewing defs ms (evs.map fun e => (e.dir, e.frame)) ∧ ShownCmds false evs := by
  obtain ⟨mem, q, l, rfl, h1, h2⟩ := dumpTrace_loop h grow defs fuel
  rw [h2]
  rcases dumpLoop_rel (grow := grow) (defs := defs) fuel h1 (by simpa using hf) false with h3 | ⟨evs, h3, h4, h5⟩
  · left; rw [h3]
  · right; exact ⟨evs, by rw [h3], h4, h5⟩

theorem taken_ofDir {d : Trace.Dir} {bs : List Bytes} {ms ms' : List Msg} (h : Taken d bs ms ms') :
    ofDir d ms = bs ++ ofDir d ms' ∧ ∀ d', d' ≠ d → ofDir d' ms = ofDir d' ms' := by
  induction h with
  | nil => exact ⟨rfl, fun _ _ => rfl⟩
  | @take m bs ms ms' hd _ ih =>
    refine ⟨by simp [ofDir, hd] at ih ⊢; exact ih.1, fun d' hd' => ?_⟩
    rw [← ih.2 d' hd']
    simp [ofDir, hd, hd'.symm]
  | @skip m b bs ms ms' hd _ ih =>
    refine ⟨by simp [ofDir, hd] at ih ⊢; exact ih.1, fun d' hd' => ?_⟩
    have := ih.2 d' hd'
    by_cases e : m.dir = d' <;> simp [ofDir, e] at this ⊢ <;> exact this

theorem taken_sub {d : Trace.Dir} {bs : List Bytes} {ms ms' : List Msg} (h : Taken d bs ms ms') : ∀ m ∈ ms', m ∈ ms := by
  induction h with
  | nil => simp
  | take _ _ ih => intro m hm; simp [ih m hm]
  | skip _ _ ih =>
    intro m hm
    rcases List.mem_cons.1 hm with rfl | hm
    · simp
    · simp [ih m hm]

theorem taken_unique {d : Trace.Dir} {bs : List Bytes} {ms ms1 ms2 : List Msg} (h : Taken d bs ms ms1) (h' : Taken d bs ms ms2) :
    ms1 = ms2 := by
  induction h generalizing ms2 with
  | nil => cases h'; rfl
  | @take m bs ms _ hd _ ih =>
    generalize e : m.data :: bs = bb at h'
    cases h' with
    | nil => cases e
    | take _ h2 => cases e; exact ih h2
    | skip hn _ => exact absurd hd hn
  | @skip m b bs ms _ hn _ ih =>
    generalize e : b :: bs = bb at h'
    cases h' with
    | nil => cases e
    | take hd _ => exact absurd hd hn
    | skip _ h2 => cases e; rw [ih h2]

theorem frames_step {defs : List ReportDef} {used rest tail : List Bytes} {r : Except Err Bytes} {rs : List (Except Err Bytes)}
    (h : OneCall defs used r) (hf : Frames defs (used ++ rest) rs tail) : ∃ rs', rs = r :: rs' ∧ Frames defs rest rs' tail := by
  generalize e : used ++ rest = bs at hf
  cases hf with
  | tail hu => exact absurd (e ▸ hu) (oneCall_not_unfinished h)
  | @cons used' rest' r' rs' _ h1 h2 =>
    obtain ⟨rfl, rfl, rfl⟩ := oneCall_unique h h1 e
    exact ⟨_, rfl, h2⟩

theorem frames_unfinished {defs : List ReportDef} {bs tail : List Bytes} {rs : List (Except Err Bytes)}
    (hu : Unfinished defs bs) (hf : Frames defs bs rs tail) : rs = [] ∧ tail = bs := by
  cases hf with
  | tail => exact ⟨rfl, rfl⟩
  | cons h1 h2 => exact absurd hu (oneCall_not_unfinished h1)

theorem unfinished_nil {defs : List ReportDef} : Unfinished defs [] := ⟨[], rfl, by simp [Pending]⟩

/-- The cutting of the messages of a direction into frames is unique, -/
theorem C58_frames_unique {defs : List ReportDef} {bs tail tail' : List Bytes} {rs rs' : List (Except Err Bytes)}
    (h : Frames defs bs rs tail) (h' : Frames defs bs rs' tail') : rs = rs' ∧ tail = tail' := by
  induction h generalizing rs' with
  | tail hu =>
    obtain ⟨h1, h2⟩ := frames_unfinished hu h'
    exact ⟨h1.symm, h2.symm⟩
  | cons h1 h2 ih =>
    obtain ⟨rs'', rfl, h3⟩ := frames_step h1 h'
    obtain ⟨h4, h5⟩ := ih h3
    exact ⟨by rw [h4], h5⟩

example {rs : List (Except Err Bytes)} {tail : List Bytes} (h : Frames defaultReportDefs [] rs tail) : rs = [] ∧ tail = [] :=
  C58_frames_unique h (.tail unfinished_nil)

/-- and always possible with a sane table. -/
theorem C58_frames_total {defs : List ReportDef} (hd : ∀ d ∈ defs, 1 ≤ d.len) (bs : List Bytes) :
    ∃ rs tail, Frames defs bs rs tail := by
  generalize hn : bs.length = n
  induction n using Nat.strongRecOn generalizing bs with
  | ind n ih =>
    subst hn
    cases hr : readFrame (fun _ n => n) defs (bs.map rawOf ++ List.replicate 0 (.error .eof)) ⟨[], []⟩ with
    | panic => exact absurd hr (C33_no_panic _ _ hd _ _)
    | ret x =>
      obtain ⟨rest, b', x⟩ := x
      rcases readFrame_calls _ _ _ hr with ⟨_, h⟩ | ⟨_, used, bs', rfl, _, h⟩
      · exact ⟨[], bs, .tail h⟩
      · have := List.length_pos_iff.2 (oneCall_ne_nil h)
        obtain ⟨rs, t, h1⟩ := ih bs'.length (by simp; omega) bs' rfl
        exact ⟨_, t, .cons h h1⟩

example : ∃ rs tail, Frames defaultReportDefs [[0x01, 0x00, 0x55], [0x63], [], [0x01, 0x02, 7]] rs tail :=
  C58_frames_total (by decide) _

/-- C58: in each direction the frames shown are the first ones, in order and unchanged. -/
theorem C58_shows_prefix {defs : List ReportDef} {ms : List Msg} {evs : List (Trace.Dir × Except Err Bytes)}
    (h : Viewing defs ms evs) {d : Trace.Dir} {rs : List (Except Err Bytes)} {tail : List Bytes}
    (hf : Frames defs (ofDir d ms) rs tail) : ∃ more, rs = shownOf d evs ++ more := by
  induction h generalizing rs with
  | done => exact ⟨rs, rfl⟩
  | cut => exact ⟨rs, rfl⟩
  | @frame m ms used ms' r evs h1 h2 _ ih =>
    obtain ⟨h3, h4⟩ := taken_ofDir h2
    by_cases hd : m.dir = d
    · subst hd
      rw [h3] at hf
      obtain ⟨rs', rfl, h5⟩ := frames_step h1 hf
      obtain ⟨more, rfl⟩ := ih h5
      exact ⟨more, by simp [shownOf]⟩
    · rw [h4 d (Ne.symm hd)] at hf
      obtain ⟨more, rfl⟩ := ih hf
      exact ⟨more, by simp [shownOf, hd]⟩

/-- C58: the viewer stops only when one direction is shown completely; and if it ends before the other one is, then the first
direction has messages behind its last frame. -/
theorem C58_stops {defs : List ReportDef} {ms : List Msg} (hm : ∀ m ∈ ms, m.dir = 0 ∨ m.dir = 1)
    {evs : List (Trace.Dir × Except Err Bytes)} (h : Viewing defs ms evs) (rs tail : Trace.Dir → List _)
    (hf : ∀ d, d = 0 ∨ d = 1 → Frames defs (ofDir d ms) (rs d) (tail d)) :
    (shownOf 0 evs = rs 0 ∧ shownOf 1 evs = rs 1) ∨
    ∃ d, (d = 0 ∨ d = 1) ∧ shownOf d evs = rs d ∧ tail d ≠ [] := by
  induction h generalizing rs with
  | done =>
    left
    exact ⟨(frames_unfinished unfinished_nil (hf 0 (.inl rfl))).1.symm, (frames_unfinished unfinished_nil (hf 1 (.inr rfl))).1.symm⟩
  | @cut m ms hu =>
    right
    have hd := hm m (by simp)
    obtain ⟨h1, h2⟩ := frames_unfinished hu (hf m.dir hd)
    exact ⟨m.dir, hd, h1.symm, by rw [h2]; simp [ofDir]⟩
  | @frame m ms used ms' r evs h1 h2 h3 ih =>
    obtain ⟨h4, h5⟩ := taken_ofDir h2
    have hd := hm m (by simp)
    have hmd := hf m.dir hd
    rw [h4] at hmd
    obtain ⟨rs', e, h6⟩ := frames_step h1 hmd
    have key : ∀ d, shownOf d ((m.dir, r) :: evs) = rs d ↔ shownOf d evs = if d = m.dir then rs' else rs d := by
      intro d
      by_cases hdd : d = m.dir
      · subst hdd; simp [shownOf, e]
      · simp [shownOf, hdd, Ne.symm hdd]
    simp only [key]
    refine ih (fun x hx => hm x (taken_sub h2 x hx)) (fun d => if d = m.dir then rs' else rs d) (fun d hd' => ?_)
    by_cases hdd : d = m.dir
    · subst hdd; simpa using h6
    · simpa [hdd, ← h5 d hdd] using hf d hd'

/-- C58 (partial). If both directions end with a complete frame, all frames of both are shown. Missing: traces in which a
direction ends in the middle of a frame, see `C58_stops` and `C58_fails`. -/
theorem C58_shows_all_partial {defs : List ReportDef} {ms : List Msg} (hm : ∀ m ∈ ms, m.dir = 0 ∨ m.dir = 1)
    {evs : List (Trace.Dir × Except Err Bytes)} (h : Viewing defs ms evs) {rs0 rs1 : List (Except Err Bytes)}
    (h0 : Frames defs (ofDir 0 ms) rs0 []) (h1 : Frames defs (ofDir 1 ms) rs1 []) :
    shownOf 0 evs = rs0 ∧ shownOf 1 evs = rs1 := by
  rcases C58_stops hm h (fun d => if d = 0 then rs0 else rs1) (fun _ => []) (by
    rintro d (rfl | rfl)
    · exact h0
    · exact h1) with h2 | ⟨_, _, _, h2⟩
  · exact h2
  · exact absurd rfl h2

theorem readCommands_safe {f : Slice} (h : SafeFrame f.data) (mode : Bool) : readCommands mode f ≠ .panic := by
  obtain ⟨ps, h1, h2⟩ := h f.spare
  have e := readCommands_scan h1 mode
  rw [show (⟨f.data, f.spare⟩ : Slice) = f from rfl] at e
  rw [e]
  cases hd : decodeAll mode ps with
  | ret x => simp
  | panic =>
    exfalso
    obtain ⟨ps1, p, ps2, m1, cmds, rfl, _, h3⟩ := decodeAll_panic.1 hd
    exact h2 p (by simp) m1 ((malformed_iff m1 p).1 h3)

theorem dumpLoop_survives {grow : Growth} {defs : List ReportDef} (hd : ∀ d ∈ defs, 1 ≤ d.len) {mem : Ptr → Msg}
    (fuel : Nat) {q : Queue} {l : List Ptr} (h : QRel mem q l)
    (hs : ∀ d rs tail, Frames defs (ofDir d (l.map mem)) rs tail → ∀ f, .ok f ∈ rs → SafeFrame f) (mode : Bool) :
    dumpLoop grow defs mem fuel q mode ≠ .panic := by
  induction fuel generalizing q l mode with
  | zero => simp [dumpLoop]
  | succ fuel ih =>
    have hhead : q.head = l.head? := by rw [Queue.head, ← h.all, List.head?_map]
    cases l with
    | nil => rw [dumpLoop, hhead]; simp
    | cons p l =>
      have hdir : (mem p).dir = 0 ∨ (mem p).dir = 1 := by
        have : p ∈ q.all.map (·.msg) := by rw [h.all]; simp
        obtain ⟨i, hi, rfl⟩ := List.mem_map.1 this
        exact h.valid i hi
      rw [dumpLoop, hhead]
      simp only [List.head?_cons]
      rcases readFrameQueue_rel (grow := grow) (defs := defs) hdir h with h1 | ⟨q', h1, _⟩ | ⟨q', l', x, used, h1, h2, h3, h4, h5, h6⟩
      · exact absurd h1 (readFrameQueue_no_panic hd hdir h)
      · rw [h1]; simp
      · rw [h1]
        simp only [Out.bind_ret]
        obtain ⟨h7, h8⟩ := taken_ofDir h5
        have hs' : ∀ d rs tail, Frames defs (ofDir d (l'.map mem)) rs tail → ∀ f, .ok f ∈ rs → SafeFrame f := by
          intro d rs tail hf f hfm
          by_cases e : d = (mem p).dir
          · subst e
            exact hs (mem p).dir _ tail (by rw [h7]; exact .cons h3 hf) f (by simp [hfm])
          · exact hs d rs tail (by rw [h8 d e]; exact hf) f hfm
        cases x with
        | error e =>
          simp only [if_neg (show ¬ e = .eof from fun he => h2 (by rw [he]))]
          have := ih h4 hs' mode
          cases hl : dumpLoop grow defs mem fuel q' mode with
          | panic => exact absurd hl this
          | ret y => simp
        | ok f =>
          simp only
          have hsafe : SafeFrame f.data := by
            obtain ⟨rs, t, hf⟩ := C58_frames_total hd (ofDir (mem p).dir (l'.map mem))
            exact hs (mem p).dir _ t (by rw [h7]; exact .cons h3 hf) f.data (by simp [plain])
          cases hc : readCommands mode f with
          | panic => exact absurd hc (readCommands_safe hsafe mode)
          | ret y =>
            simp only [Out.bind_ret]
            have := ih h4 hs' y.1
            cases hl : dumpLoop grow defs mem fuel q' y.1 with
            | panic => exact absurd hl this
            | ret y => simp

/-- C58 (partial: termination). With a sane table, viewing a readable trace whose frames the packet loop survives comes to its
end. Missing: frames with overrunning or malformed packets, see `C58_fails_panic`; unreadable traces are refused. -/
theorem C58_terminates_partial {r : Reader} {ms : List Msg} (h : loadTrace r = .ok ms) (grow : Growth) {defs : List ReportDef}
    (hd : ∀ d ∈ defs, 1 ≤ d.len)
    (hs : ∀ d rs tail, Frames defs (ofDir d ms) rs tail → ∀ f, .ok f ∈ rs → SafeFrame f) (fuel : Nat) (hf : ms.length < fuel) :
    ∃ evs, dumpTrace grow defs fuel r = .ok (.ret (some evs)) ∧
      Viewing defs ms (evs.map fun e => (e.dir, e.frame)) ∧ ShownCmds false evs := by
  rcases C58_view_partial h grow defs fuel hf with h1 | h1
  · exfalso
    obtain ⟨mem, q, l, rfl, h2, h3⟩ := dumpTrace_loop h grow defs fuel
    rw [h3] at h1
    exact dumpLoop_survives hd fuel h2 hs false (Except.ok.inj h1)
  · exact h1

theorem viewing_cut {defs : List ReportDef} {m : Msg} {ms : List Msg} {evs : List (Trace.Dir × Except Err Bytes)}
    (hu : Unfinished defs (ofDir m.dir (m :: ms))) (h : Viewing defs (m :: ms) evs) : evs = [] := by
  cases h with
  | cut => rfl
  | frame h1 h2 _ =>
    rw [(taken_ofDir h2).1] at hu
    exact absurd hu (oneCall_not_unfinished h1)

/-- What the viewer shows is determined. -/
theorem C58_viewing_unique {defs : List ReportDef} {ms : List Msg} {evs evs' : List (Trace.Dir × Except Err Bytes)}
    (h : Viewing defs ms evs) (h' : Viewing defs ms evs') : evs = evs' := by
  induction h generalizing evs' with
  | done => cases h'; rfl
  | cut hu => exact (viewing_cut hu h').symm
  | @frame m ms used ms1 r evs h1 h2 _ ih =>
    cases h' with
    | cut hu =>
      rw [(taken_ofDir h2).1] at hu
      exact absurd hu (oneCall_not_unfinished h1)
    | @frame _ _ used' ms2 r' evs2 h3 h4 h5 =>
      have e := (taken_ofDir h2).1.symm.trans (taken_ofDir h4).1
      obtain ⟨rfl, _, rfl⟩ := oneCall_unique h1 h3 e
      rw [taken_unique h2 h4] at ih
      rw [ih h5]

/-- A packet (RequestiPodName) in one report. -/
theorem sample_oneCall (id : UInt8) (h : id = 0x01 ∨ id = 0x05) :
    OneCall defaultReportDefs [[id, 0x00, 0x55, 0x02, 0x00, 0x07, 0xF7]] (.ok [0x55, 0x02, 0x00, 0x07, 0xF7]) := by
  refine .frame (rs := [⟨id, 0x00, [0x55, 0x02, 0x00, 0x07, 0xF7]⟩]) rfl ?_
  have ha : Accepted defaultReportDefs ⟨id, 0x00, [0x55, 0x02, 0x00, 0x07, 0xF7]⟩ [0x55, 0x02, 0x00, 0x07, 0xF7] := by
    rcases h with rfl | rfl
    · exact accepted_iff.2 ⟨_, rfl, by decide, rfl⟩
    · exact accepted_iff.2 ⟨_, rfl, by decide, rfl⟩
  have he : Ends ⟨id, 0x00, [0x55, 0x02, 0x00, 0x07, 0xF7]⟩ := by rcases h with rfl | rfl <;> decide
  have hk : Known ⟨id, 0x00, [0x55, 0x02, 0x00, 0x07, 0xF7]⟩ := by rcases h with rfl | rfl <;> decide
  refine ⟨⟨[], _, rfl, he, by simp⟩, ?_, [], _, rfl, ?_, by simp, .inl rfl⟩
  · intro r hr
    simp only [List.mem_cons, List.not_mem_nil, or_false] at hr
    subst hr
    exact ⟨_, ha⟩
  · exact .cons (b := [0x55, 0x02, 0x00, 0x07, 0xF7]) (bs := []) hk ha .nil

/-- A trace with one request, viewed (`C58_terminates_partial` gives that the viewer ends; `C58_viewing_unique` that it shows this). -/
example (fuel : Nat) (hf : 1 < fuel) (evs evs' : List (Trace.Dir × Except Err Bytes))
    (h : Viewing defaultReportDefs [⟨0, 0, [0x01, 0x00, 0x55, 0x02, 0x00, 0x07, 0xF7]⟩] evs)
    (h' : Viewing defaultReportDefs [⟨0, 0, [0x01, 0x00, 0x55, 0x02, 0x00, 0x07, 0xF7]⟩] evs') :
    evs = evs' ∧ (∃ more, [Except.ok [0x55, 0x02, 0x00, 0x07, 0xF7]] = shownOf 0 evs ++ more) ∧
    (dumpTrace (fun _ n => n) defaultReportDefs fuel
        (newReader (writeMsgs [] [⟨0, 0, [0x01, 0x00, 0x55, 0x02, 0x00, 0x07, 0xF7]⟩]) none) = .ok .panic ∨
      ∃ evs, dumpTrace (fun _ n => n) defaultReportDefs fuel
          (newReader (writeMsgs [] [⟨0, 0, [0x01, 0x00, 0x55, 0x02, 0x00, 0x07, 0xF7]⟩]) none) = .ok (.ret (some evs)) ∧
        Viewing defaultReportDefs [⟨0, 0, [0x01, 0x00, 0x55, 0x02, 0x00, 0x07, 0xF7]⟩] (evs.map fun e => (e.dir, e.frame)) ∧
        ShownCmds false evs) :=
  ⟨C58_viewing_unique h h',
    C58_shows_prefix h (.cons (rest := []) (sample_oneCall 0x01 (.inl rfl)) (.tail unfinished_nil)),
    C58_view_partial (C58_loads _ (by simp [Traceable])) _ _ fuel hf⟩

theorem sample_safe : SafeFrame [0x55, 0x02, 0x00, 0x07, 0xF7] := by
  intro spare
  refine ⟨[[0x00, 0x07]], .packet (j := []) (w := [0x55, 0x02, 0x00, 0x07, 0xF7]) (rest := []) (by decide)
    ⟨[2], 0xF7, .inl ⟨2, by decide, rfl, rfl⟩, rfl, by decide⟩ (.done (by decide)), ?_⟩
  rintro p hp m ⟨trx, _, ⟨b, h, _⟩ | ⟨n, r, h, _⟩⟩ <;> (simp at hp; subst hp; simp at h)

/-- C58 fails: a trace that begins with an incomplete incoming frame. The complete outgoing frame behind it is not shown. -/
theorem C58_fails (grow : Growth) : ∃ ms : List Msg, (∀ m ∈ ms, Traceable m) ∧
    Frames defaultReportDefs (ofDir 1 ms) [.ok [0x55, 0x02, 0x00, 0x07, 0xF7]] [] ∧
    ∀ fuel, ms.length < fuel → dumpTrace grow defaultReportDefs fuel (newReader (writeMsgs [] ms) none) = .ok (.ret (some [])) := by
  have hu : Unfinished defaultReportDefs [[0x01, 0x02, 0x55]] := by
    refine ⟨[⟨0x01, 0x02, [0x55]⟩], rfl, ?_⟩
    intro r hr
    simp only [List.mem_cons, List.not_mem_nil, or_false] at hr
    subst hr
    exact ⟨⟨_, accepted_iff.2 ⟨_, rfl, by decide, rfl⟩⟩, by decide⟩
  have ht : ∀ m ∈ ([⟨0, 0, [0x01, 0x02, 0x55]⟩, ⟨1, 0, [0x05, 0x00, 0x55, 0x02, 0x00, 0x07, 0xF7]⟩] : List Msg), Traceable m := by
    intro m hm
    simp only [List.mem_cons, List.not_mem_nil, or_false] at hm
    rcases hm with rfl | rfl
    · exact ⟨.inl rfl, by decide, by decide⟩
    · exact ⟨.inr rfl, by decide, by decide⟩
  have hf1 : Frames defaultReportDefs [[0x05, 0x00, 0x55, 0x02, 0x00, 0x07, 0xF7]] [.ok [0x55, 0x02, 0x00, 0x07, 0xF7]] [] :=
    .cons (rest := []) (sample_oneCall 0x05 (.inr rfl)) (.tail unfinished_nil)
  refine ⟨_, ht, hf1, fun fuel hf => ?_⟩
  obtain ⟨evs, h1, h2, _⟩ := C58_terminates_partial (C58_loads _ ht) grow (defs := defaultReportDefs) (by decide) (by
    intro d rs tail h f hfm
    by_cases h0 : d = 0
    · subst h0
      rw [(frames_unfinished hu h).1] at hfm
      simp at hfm
    · by_cases h1 : d = 1
      · subst h1
        rw [(C58_frames_unique h hf1).1] at hfm
        simp at hfm
        subst hfm
        exact sample_safe
      · have e : ofDir d (List.map (fun p : Msg × Nat => (⟨p.1.dir, UInt64.ofNat p.2, p.1.data⟩ : Msg)) (List.zipIdx (α := Msg)
            [⟨0, 0, [0x01, 0x02, 0x55]⟩, ⟨1, 0, [0x05, 0x00, 0x55, 0x02, 0x00, 0x07, 0xF7]⟩])) = [] := by
          simp [ofDir, Ne.symm h0, Ne.symm h1]
        rw [e] at h
        rw [(frames_unfinished unfinished_nil h).1] at hfm
        simp at hfm) fuel hf
  have := viewing_cut (m := ⟨0, 0, [0x01, 0x02, 0x55]⟩) hu h2
  rw [h1, List.map_eq_nil_iff.1 this]

/-- C58 fails: the viewer panics at an incoming report that announces a packet beyond the frame. -/
theorem C58_fails_panic (grow : Growth) (fuel : Nat) :
    dumpTrace grow defaultReportDefs (fuel + 1) (newReader (writeMsgs [] [⟨0, 0, [0x01, 0x00, 0x55, 0xff, 0x01, 0x02]⟩]) none) =
      .ok .panic := by
  have ht : ∀ m ∈ ([⟨0, 0, [0x01, 0x00, 0x55, 0xff, 0x01, 0x02]⟩] : List Msg), Traceable m := by
    intro m hm
    simp only [List.mem_cons, List.not_mem_nil, or_false] at hm
    subst hm
    exact ⟨.inl rfl, by decide, by decide⟩
  have hp : readPacket ⟨[0x55, 0xff, 0x01, 0x02], List.replicate 60 0⟩ = .panic := by decide +kernel
  have hr : ∀ mode, readCommands mode ⟨[0x55, 0xff, 0x01, 0x02], List.replicate 60 0⟩ = .panic := by
    intro mode
    rw [readCommands_eq, hp]
  rw [dumpTrace, C58_loads _ ht]
  simp only [List.zipIdx_cons, List.zipIdx_nil, List.map_cons, List.map_nil, List.length_cons, List.length_nil]
  generalize hm : (fun p : Ptr => ([(⟨0, UInt64.ofNat 0, [0x01, 0x00, 0x55, 0xff, 0x01, 0x02]⟩ : Msg)][p]?).getD Msg.zero) = mem
  have h1 : enqueueAll mem (List.range (0 + 1)) Queue.empty = .ret ⟨[⟨0, 0⟩], [⟨0, 0⟩], [], 1⟩ := by rw [← hm]; rfl
  have h2 : readFrameQueue grow defaultReportDefs mem (mem 0).dir ⟨[⟨0, 0⟩], [⟨0, 0⟩], [], 1⟩ =
      .ret (⟨[], [], [], 1⟩, .ok ⟨[0x55, 0xff, 0x01, 0x02], List.replicate 60 0⟩) := by rw [← hm]; rfl
  rw [h1]
  simp only [Out.bind_ret, dumpLoop, Queue.head, List.head?_cons, Option.map_some, h2, hr, Out.bind_panic]

/-- C58 fails: one bad line at the end, and nothing of the trace is shown. -/
theorem C58_fails_unreadable (ms : List Msg) (h : ∀ m ∈ ms, Traceable m) (grow : Growth) (defs : List ReportDef) (fuel : Nat) :
    ∃ e, dumpTrace grow defs fuel (newReader (writeMsgs [] ms ++ [0x21, 0x0A]) none) = .error e := by
  suffices ∃ e, loadTrace (newReader (writeMsgs [] ms ++ [0x21, 0x0A]) none) = .error e by
    obtain ⟨e, he⟩ := this
    exact ⟨e, by rw [dumpTrace, he]⟩
  rw [writeMsgs_text ms (fun m hm => ⟨(h m hm).1, by have := (h m hm).2.1; intro h0; rw [h0] at this; simp at this⟩)]
  rw [List.nil_append, newReader]
  generalize (0 : UInt64) = ts
  induction ms generalizing ts with
  | nil =>
    rw [loadTrace]
    simp only
    have : readMsgLoop ⟨traceText [] ++ [0x21, 0x0A], none, none, ts⟩ Msg.zero =
        (⟨[], none, none, ts⟩, Msg.zero, some Err.badTrace) := by
      rw [readMsgLoop]
      rfl
    refine ⟨Err.badTrace, ?_⟩
    split <;> rename_i he <;> rw [this] at he
    · cases he
    · cases he
      rfl
  | cons m ms ih =>
    have e := readMsgLoop_line (m0 := Msg.zero) (h m (by simp)) (traceText ms ++ [0x21, 0x0A]) none none ts
    obtain ⟨err, this⟩ := ih (fun x hx => h x (by simp [hx])) (ts + 1)
    refine ⟨err, ?_⟩
    rw [show traceText (m :: ms) ++ [0x21, 0x0A] = lineOf ((signOf m.dir).getD 0) m.data ++ 0x0A :: (traceText ms ++ [0x21, 0x0A]) by
      simp [traceText], loadTrace]
    simp only
    split <;> rename_i he <;> rw [e] at he
    · simp only [Prod.mk.injEq] at he
      rw [← he.1, this]
    · cases he

example : ∃ e, dumpTrace (fun _ n => n) defaultReportDefs 9
    (newReader (writeMsgs [] [⟨0, 0, [0x01, 0x00, 0x55]⟩, ⟨1, 0, [2]⟩] ++ [0x21, 0x0A]) none) = .error e :=
  C58_fails_unreadable _ (by simp [Traceable]) _ _ _

/-- Two interleaved directions: an outgoing frame cut in two by an incoming one; both are shown. -/
example (evs : List (Trace.Dir × Except Err Bytes))
    (h : Viewing defaultReportDefs [⟨1, 0, [0x05, 0x02, 0x55]⟩, ⟨0, 0, [0x01, 0x00, 0x55, 0x02, 0x00, 0x07, 0xF7]⟩,
      ⟨1, 0, [0x05, 0x01, 0x02]⟩] evs) :
    shownOf 0 evs = [.ok [0x55, 0x02, 0x00, 0x07, 0xF7]] ∧ shownOf 1 evs = [.ok [0x55, 0x02]] := by
  refine C58_shows_all_partial (by simp) h
    (.cons (rest := []) (sample_oneCall 0x01 (.inl rfl)) (.tail unfinished_nil)) ?_
  refine .cons (used := [[0x05, 0x02, 0x55], [0x05, 0x01, 0x02]]) (rest := []) (.frame
    (rs := [⟨0x05, 0x02, [0x55]⟩, ⟨0x05, 0x01, [0x02]⟩]) rfl ?_) (.tail unfinished_nil)
  have ha : ∀ r : Report, r.id = 5 → r.data.length ≤ 7 → Accepted defaultReportDefs r r.data := fun r hr hl =>
    accepted_iff.2 ⟨⟨0x05, 8, .accIn⟩, by rw [hr]; rfl, by decide, (List.take_of_length_le hl).symm⟩
  refine ⟨⟨[⟨0x05, 0x02, [0x55]⟩], _, rfl, by decide, by decide⟩, ?_, [], _, rfl,
    .cons (b := [0x55]) (by decide) (ha _ rfl (by decide)) (.cons (b := [0x02]) (by decide) (ha _ rfl (by decide)) .nil),
    by decide, .inl rfl⟩
  intro r hr
  simp only [List.mem_cons, List.not_mem_nil, or_false] at hr
  rcases hr with rfl | rfl
  · exact ⟨_, ha _ rfl (by decide)⟩
  · exact ⟨_, ha _ rfl (by decide)⟩

end Props
