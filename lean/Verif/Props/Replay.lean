import Verif.Spec.Replay
import Verif.Props.Server
import Verif.Props.Trace

/-! # Property C44: replaying a recorded session -/

namespace Props
open Go Spec Ipod Ipod.Hid Ipod.Trace

theorem frameReads_errors {grow : Growth} {defs : List ReportDef} (n : Nat) (rs : List (Except Err Report))
    (h : ∀ x ∈ rs, ∃ e, x = .error e) (buf : Slice) : ∃ xs, frameReads grow defs n rs buf = .ret xs := by
  induction n generalizing rs buf with
  | zero => exact ⟨[], rfl⟩
  | succ n ih =>
    cases rs with
    | nil =>
      obtain ⟨xs, hx⟩ := ih [] h buf.reset
      exact ⟨_ :: xs, by simp only [frameReads, readFrame, readFrameLoop, Out.bind_ret, hx]; rfl⟩
    | cons x rs =>
      obtain ⟨e, rfl⟩ := h x (by simp)
      obtain ⟨xs, hx⟩ := ih rs (fun y hy => h y (by simp [hy])) buf.reset
      exact ⟨_ :: xs, by simp only [frameReads, readFrame, readFrameLoop, Out.bind_ret, hx]; rfl⟩

theorem reset_reset (b : Slice) : b.reset.reset = b.reset := by simp [Slice.reset]

theorem frameReads_reset {grow : Growth} {defs : List ReportDef} (n : Nat) (rs : List (Except Err Report)) (buf : Slice) :
    frameReads grow defs n rs buf.reset = frameReads grow defs n rs buf := by
  cases n with
  | zero => rfl
  | succ n => simp only [frameReads, readFrame, reset_reset]

theorem fails_tail {defs : List ReportDef} {x : ReadRes} {reads : List ReadRes} (h : FailsBetweenFrames defs (x :: reads)) :
    FailsBetweenFrames defs reads := by
  rintro pre a b rest rfl hb
  exact h (x :: pre) a b rest rfl hb

/-- The recorded reads, as reports, then the end of the trace, `k` times. -/
def goodReports (k : Nat) (live : List ReadRes) : List (Except Err Report) :=
  (live.filter (fun x => decide (Recorded x))).map rawReadReport ++ List.replicate k (.error .eof)

theorem goodReports_cons {k : Nat} {x : ReadRes} {live : List ReadRes} (h : Recorded x) :
    goodReports k (x :: live) = rawReadReport x :: goodReports k live := by
  simp [goodReports, h]

theorem goodReports_cons_bad {k : Nat} {x : ReadRes} {live : List ReadRes} (h : ¬ Recorded x) :
    goodReports k (x :: live) = goodReports k live := by
  simp [goodReports, h]

/-- One `ReadFrame` call that begins with a recorded read. -/
theorem readFrameLoop_good {grow : Growth} {defs : List ReportDef} (k : Nat) (live : List ReadRes)
    (hl : ∀ x ∈ live, x.data.length ≤ 1024) (hf : FailsBetweenFrames defs live)
    (h0 : ∀ x ∈ live.head?, Recorded x) (buf : Slice) :
    (readFrameLoop grow defs (live.map rawReadReport) buf = .panic ∧
      readFrameLoop grow defs (goodReports k live) buf = .panic) ∨
    (∃ live' b x, readFrameLoop grow defs (live.map rawReadReport) buf = .ret (live'.map rawReadReport, b, x) ∧
      readFrameLoop grow defs (goodReports k live) buf = .ret (goodReports k live', b, x) ∧ x ≠ .error .eof ∧
      live'.length < live.length ∧ ∃ pre, live = pre ++ live') ∨
    (∃ b, readFrameLoop grow defs (live.map rawReadReport) buf = .ret ([], b, .error .eof) ∧
      ∃ j, readFrameLoop grow defs (goodReports k live) buf = .ret (List.replicate j (.error .eof), b, .error .eof)) := by
  induction live generalizing buf with
  | nil =>
    refine .inr (.inr ⟨buf, rfl, k - 1, ?_⟩)
    cases k with
    | zero => rfl
    | succ k => rfl
  | cons x live ih =>
    have hx : Recorded x := h0 x (by simp)
    rw [goodReports_cons hx, List.map_cons]
    obtain ⟨data, err⟩ := x
    obtain ⟨rfl, hd⟩ := hx
    match hr : rawReadReport ⟨data, none⟩ with
    | .error e =>
      refine .inr (.inl ⟨live, buf, .error e, rfl, rfl, ?_, by simp, [_], rfl⟩)
      intro he; cases he
      simp only [rawReadReport] at hr
      split at hr <;> cases hr
    | .ok r =>
      cases hfind : find defs r.id.toNat with
      | none => exact .inr (.inl ⟨live, buf, .error Err.noReport, by simp only [readFrameLoop, hfind], by simp only [readFrameLoop, hfind],
        by simp [Err.noReport], by simp, [_], rfl⟩)
      | some def_ =>
        by_cases hneg : def_.maxPayload < 0
        · left; constructor <;> simp only [readFrameLoop, hfind, if_pos hneg]
        by_cases he : Ends r
        · have ha : Accepted defs r (r.data.take def_.maxPayload.toNat) := accepted_iff.2 ⟨def_, hfind, by omega, rfl⟩
          have h1 := readFrameLoop_accepted grow defs r _ ha (live.map rawReadReport) buf
          have h2 := readFrameLoop_accepted grow defs r _ ha (goodReports k live) buf
          simp only [if_pos he] at h1 h2
          exact .inr (.inl ⟨live, _, _, h1, h2, by simp, by simp, [_], rfl⟩)
        · have ha : Accepted defs r (r.data.take def_.maxPayload.toNat) := accepted_iff.2 ⟨def_, hfind, by omega, rfl⟩
          rw [readFrameLoop_accepted grow defs r _ ha (live.map rawReadReport) buf,
            readFrameLoop_accepted grow defs r _ ha (goodReports k live) buf]
          simp only [if_neg he]
          have hhead : ∀ y ∈ live.head?, Recorded y := by
            intro y hy
            cases live with
            | nil => cases hy
            | cons z live =>
              simp only [List.head?_cons, Option.mem_def, Option.some.injEq] at hy
              subst hy
              refine Classical.byContradiction fun hb => he ?_
              have hlen := hl ⟨data, none⟩ (by simp)
              simp only [rawReadReport] at hr
              rw [List.take_of_length_le hlen] at hr
              split at hr
              · rename_i hdat
                cases hr
                exact hf [] _ z live rfl hb _ _ _ _ (congrArg (ReadRes.mk · none) hdat) ⟨_, ha⟩
              · cases hr
          rcases ih (fun y hy => hl y (by simp [hy])) (fails_tail hf) hhead
              (if Starts r then buf.reset.write grow _ else if Known r then buf.write grow _ else buf) with h | h | h
          · exact .inl h
          · obtain ⟨live', b, y, h1, h2, h3, h4, pre, h5⟩ := h
            exact .inr (.inl ⟨live', b, y, h1, h2, h3, by simp only [List.length_cons]; omega, _ :: pre, by rw [h5]; rfl⟩)
          · exact .inr (.inr h)

/-- The server on the live reads and on the recorded ones. -/
theorem serve_good {σ : Type} (D : Device σ) (clock : Clock) (grow : Growth) (defs : List ReportDef) (k m : Nat)
    (live : List ReadRes) (hm : live.length ≤ m) (hl : ∀ x ∈ live, x.data.length ≤ 1024 ∧ x.err ≠ some .eof)
    (hf : FailsBetweenFrames defs live) (n n' : Nat) (hn : live.length ≤ n) (hn' : (goodReports k live).length ≤ n')
    (buf : Slice) (s : Srv σ) :
    (frameReads grow defs n (live.map rawReadReport) buf >>= fun fs => processFrames D clock fs s) =
      (frameReads grow defs n' (goodReports k live) buf >>= fun fs => processFrames D clock fs s) := by
  have eof : ∀ n (rs : List (Except Err Report)) buf b j (s : Srv σ),
      readFrame grow defs rs buf = .ret (List.replicate j (.error .eof), b, .error .eof) →
      (frameReads grow defs n rs buf >>= fun fs => processFrames D clock fs s) = .ret (s, []) := by
    intro n rs buf b j s h
    cases n with
    | zero => rfl
    | succ n =>
      obtain ⟨xs, hx⟩ := frameReads_errors (grow := grow) (defs := defs) n (List.replicate j (.error .eof))
        (fun x hx => ⟨_, (List.mem_replicate.1 hx).2⟩) b
      simp only [frameReads, h, Out.bind_ret, hx, processFrames]
  induction m generalizing live n n' buf s with
  | zero =>
    have : live = [] := List.length_eq_zero_iff.1 (by omega)
    subst this
    rw [eof n _ buf buf.reset 0 s rfl]
    cases k with
    | zero => rw [eof n' _ buf buf.reset 0 s rfl]
    | succ k => rw [eof n' _ buf buf.reset k s rfl]
  | succ m ih =>
    cases live with
    | nil =>
      rw [eof n _ buf buf.reset 0 s rfl]
      cases k with
      | zero => rw [eof n' _ buf buf.reset 0 s rfl]
      | succ k => rw [eof n' _ buf buf.reset k s rfl]
    | cons x live =>
      by_cases hx : Recorded x
      · have key := readFrameLoop_good (grow := grow) k (x :: live) (fun y hy => (hl y hy).1) hf (by simpa using hx) buf.reset
        obtain ⟨n, rfl⟩ : ∃ a, n = a + 1 := ⟨n - 1, by simp only [List.length_cons] at hn; omega⟩
        obtain ⟨n', rfl⟩ : ∃ a, n' = a + 1 := ⟨n' - 1, by
          rw [goodReports_cons hx] at hn'; simp only [List.length_cons] at hn'; omega⟩
        rcases key with ⟨h1, h2⟩ | ⟨live', b, y, h1, h2, h3, h4, pre, h5⟩ | ⟨b, h1, j, h2⟩
        · simp only [frameReads, readFrame, h1, h2, Out.bind_panic]
        · have hl' : ∀ y ∈ live', y.data.length ≤ 1024 ∧ y.err ≠ some .eof := fun y hy => hl y (by rw [h5]; simp [hy])
          have hf' : FailsBetweenFrames defs live' := by
            rintro p a c rest rfl hc
            exact hf (pre ++ p) a c rest (by rw [h5]; simp) hc
          have hg : (goodReports k live').length < (goodReports k (x :: live)).length := by
            rcases readFrameLoop_takes _ _ h2 with h | ⟨_, h⟩
            · omega
            · exact absurd h h3
          have rec_ := fun s => ih live' (by simp only [List.length_cons] at hm h4; omega) hl' hf' n n'
            (by simp only [List.length_cons] at hn h4; omega) (by omega) b s
          have expand : ∀ (o : Out (List (Except Err Slice))),
              ((o >>= fun more => .ret (y :: more)) >>= fun fs => processFrames D clock fs s) =
              o >>= fun fs => processFrames D clock (y :: fs) s := by
            intro o; cases o <;> rfl
          simp only [frameReads, readFrame, h1, h2, Out.bind_ret, expand]
          cases y with
          | error e =>
            have hs : ∀ fs, processFrames D clock (.error e :: fs) s = processFrames D clock fs s := fun fs =>
              C57_error_skipped D clock [] fs e (fun h => h3 (by rw [h])) s
            simp only [hs]
            exact rec_ s
          | ok f =>
            simp only [processFrames]
            cases hp : processFrame D clock s f with
            | panic =>
              simp only [Out.bind_panic]
              have hd : ∀ (o1 o2 : Out (List (Except Err Slice))), (o1 >>= fun _ => (Out.panic : Out (Srv σ × List Bytes))) =
                  o2 >>= fun _ => Out.panic := by intro o1 o2; cases o1 <;> cases o2 <;> rfl
              exact hd _ _
            | ret z =>
              have hz : ∀ o : Out (List (Except Err Slice)), (o >>= fun fs => Out.ret z >>= fun x =>
                  processFrames D clock fs x.1 >>= fun y => .ret (y.1, x.2 ++ y.2)) =
                  (o >>= fun fs => processFrames D clock fs z.1) >>= fun y => .ret (y.1, z.2 ++ y.2) := by
                intro o; cases o <;> rfl
              rw [hz, hz, rec_ z.1]
        · rw [eof (n + 1) _ buf b 0 s h1, eof (n' + 1) _ buf b j s h2]
      · obtain ⟨n, rfl⟩ : ∃ a, n = a + 1 := ⟨n - 1, by simp only [List.length_cons] at hn; omega⟩
        rw [goodReports_cons_bad hx] at hn' ⊢
        have hr : ∃ e, rawReadReport x = .error e ∧ e ≠ .eof := by
          obtain ⟨data, err⟩ := x
          cases err with
          | some e => exact ⟨e, rfl, fun h => (hl ⟨data, some e⟩ (by simp)).2 (by rw [h])⟩
          | none =>
            have : data = [] := Classical.byContradiction fun h => hx ⟨rfl, h⟩
            subst this
            exact ⟨.noProgress, rfl, by decide⟩
        obtain ⟨e, hr, he⟩ := hr
        have h1 := ih live (by simp only [List.length_cons] at hm; omega) (fun y hy => hl y (by simp [hy])) (fails_tail hf) n n'
          (by simp only [List.length_cons] at hn; omega) hn' buf s
        rw [← h1, ← frameReads_reset n]
        simp only [List.map_cons, hr, frameReads, readFrame, readFrameLoop, Out.bind_ret]
        cases frameReads grow defs n (live.map rawReadReport) buf.reset with
        | panic => rfl
        | ret fs => exact C57_error_skipped D clock [] fs e he s

/-- The reads among the operations on a device. -/
def readsOf (ops : List TOp) : List ReadRes :=
  ops.filterMap fun
    | .read r => some r
    | .write _ _ => none

/-- The messages a tracer records. -/
def recordedMsgs (ops : List TOp) : List Msg :=
  ((ops.filterMap moved).filter (fun p => p.2 ≠ [])).map fun p => ⟨p.1, 0, p.2⟩

theorem recorded_text (ops : List TOp) : (runTracer [] ops).1 = traceText (recordedMsgs ops) := by
  rw [C41_tracer]
  simp only [List.nil_append, traceText, recordedMsgs, List.flatMap_map]
  rw [List.flatMap_def, List.flatMap_def]
  congr 1
  apply List.map_congr_left
  intro p hp
  have hp := (List.mem_filter.1 hp).1
  obtain ⟨op, _, ho⟩ := List.mem_filterMap.1 hp
  have : p.1 = 0 ∨ p.1 = 1 := by
    unfold moved at ho
    split at ho <;> simp only [Option.some.injEq, reduceCtorEq] at ho
    · rw [← ho]; exact .inl rfl
    · rw [← ho]; exact .inr rfl
  rcases this with h | h <;> rw [h] <;> rfl

theorem recorded_traceable (ops : List TOp) (hr : ∀ res, .read res ∈ ops → res.data.length ≤ 1024)
    (hw : ∀ p res, .write p res ∈ ops → p.length ≤ 21844) : ∀ m ∈ recordedMsgs ops, Traceable m := by
  intro m hm
  obtain ⟨p, hp, rfl⟩ := List.mem_map.1 hm
  obtain ⟨hp1, hp2⟩ := List.mem_filter.1 hp
  have hp2 : p.2 ≠ [] := by simpa using hp2
  obtain ⟨op, hop, ho⟩ := List.mem_filterMap.1 hp1
  unfold moved at ho
  split at ho <;> simp only [Option.some.injEq, reduceCtorEq] at ho
  · subst ho
    have := hr _ hop
    exact ⟨.inl rfl, List.length_pos_iff.2 hp2, by simp only at this ⊢; omega⟩
  · subst ho
    have := hw _ _ hop
    exact ⟨.inr rfl, List.length_pos_iff.2 hp2, by simp only [List.length_take]; omega⟩

/-- C44, the trace: replaying the incoming half of the recorded trace gives back the successful non-empty reads of the live
session, in order, and then the end of the file for ever; whatever was written in between. -/
theorem C44_replayed_reads (ops : List TOp)
    (hr : ∀ res, .read res ∈ ops → res.data.length ≤ 1024) (hw : ∀ p res, .write p res ∈ ops → p.length ≤ 21844) (k : Nat) :
    let recorded := (readsOf ops).filter (fun x => decide (Recorded x))
    dirReads dirIn 1024 (recorded.length + k) (newReader (runTracer [] ops).1 none) =
      recorded ++ List.replicate k ⟨[], some .eof⟩ := by
  intro recorded
  have h1 := recorded_text ops
  have h2 := recorded_traceable ops hr hw
  have h3 : ((recordedMsgs ops).filter (·.dir = dirIn)).map (fun m => (⟨m.data, none⟩ : ReadRes)) = recorded := by
    simp only [recorded]
    clear h1 h2 hr hw recorded
    induction ops with
    | nil => rfl
    | cons op ops ih =>
      have hcons : ∀ p, moved op = some p → p.2 ≠ [] → recordedMsgs (op :: ops) = ⟨p.1, 0, p.2⟩ :: recordedMsgs ops := by
        intro p h1 h2; simp [recordedMsgs, h1, h2]
      have hskip : (∀ p, moved op = some p → p.2 = []) → recordedMsgs (op :: ops) = recordedMsgs ops := by
        intro h
        cases hm : moved op with
        | none => simp [recordedMsgs, hm]
        | some p => simp [recordedMsgs, hm, h p hm]
      cases op with
      | read res =>
        obtain ⟨d, err⟩ := res
        have e : readsOf (.read ⟨d, err⟩ :: ops) = ⟨d, err⟩ :: readsOf ops := rfl
        rw [e]
        by_cases hrec : Recorded ⟨d, err⟩
        · obtain ⟨rfl, hd⟩ := hrec
          rw [hcons (0, d) rfl hd, List.filter_cons_of_pos (by simp), List.filter_cons_of_pos (by simpa [Recorded] using hd),
            List.map_cons, ih]
        · rw [hskip, List.filter_cons_of_neg (by simpa using hrec), ih]
          intro p hp
          cases err with
          | some e => cases hp
          | none => cases hp; exact Classical.byContradiction fun h => hrec ⟨rfl, h⟩
      | write p res =>
        obtain ⟨n, err⟩ := res
        have e : readsOf (.write p ⟨n, err⟩ :: ops) = readsOf ops := rfl
        rw [e]
        cases err with
        | some e => rw [hskip (by intro q hq; cases hq), ih]
        | none =>
          by_cases hp : p.take n = []
          · rw [hskip (by intro q hq; cases hq; exact hp), ih]
          · rw [hcons (1, p.take n) rfl hp, List.filter_cons_of_neg (by simp only [decide_eq_true_eq]; decide), ih]
  have hlen : (recorded.length) = ((recordedMsgs ops).filter (·.dir = dirIn)).length := by rw [← h3, List.length_map]
  rw [h1, hlen, C42_direction_reader _ h2, ← h3]
  congr 1
  apply List.map_congr_left
  intro m hm
  have hm' := List.mem_filter.1 hm
  obtain ⟨p, hp, rfl⟩ := List.mem_map.1 hm'.1
  have hdir : p.1 = 0 := by simpa using hm'.2
  obtain ⟨op, hop, ho⟩ := List.mem_filterMap.1 (List.mem_filter.1 hp).1
  unfold moved at ho
  split at ho <;> simp only [Option.some.injEq, reduceCtorEq] at ho
  · subst ho
    have := hr _ hop
    rw [List.take_of_length_le this]
  · subst ho; cases hdir

/-- C44 (sessions whose failing and empty reads come between frames). Replaying the trace of a live session gives the same
responses and ends in the same state. Missing: a read that fails or returns nothing while a frame is being received; the
live server loses the first part of that frame, the replay does not, see `C44_fails`. (Both are given the same clock, which
only the dates told to the display lingo depend on.) -/
theorem C44_replay_same_partial {σ : Type} (D : Device σ) (clock : Clock) (grow : Growth) (defs : List ReportDef) (ops : List TOp)
    (hr : ∀ res, .read res ∈ ops → res.data.length ≤ 1024 ∧ res.err ≠ some .eof)
    (hw : ∀ p res, .write p res ∈ ops → p.length ≤ 21844) (hf : FailsBetweenFrames defs (readsOf ops)) (k : Nat) (s : Srv σ) :
    let n := ((readsOf ops).filter (fun x => decide (Recorded x))).length + k
    serve D clock grow defs (dirReads dirIn 1024 n (newReader (runTracer [] ops).1 none)) s =
      serve D clock grow defs (readsOf ops) s := by
  intro n
  have hmem : ∀ x ∈ readsOf ops, .read x ∈ ops := by
    intro x hx
    obtain ⟨op, hop, ho⟩ := List.mem_filterMap.1 hx
    split at ho
    · cases ho; exact hop
    · cases ho
  rw [C44_replayed_reads ops (fun r h => (hr r h).1) hw k, serve, serve]
  have hgood : ((readsOf ops).filter (fun x => decide (Recorded x)) ++ List.replicate k (⟨[], some .eof⟩ : ReadRes)).map rawReadReport =
      goodReports k (readsOf ops) := by
    rw [List.map_append, List.map_replicate]; rfl
  rw [hgood]
  exact (serve_good D clock grow defs k _ (readsOf ops) (Nat.le_refl _) (fun x hx => hr x (hmem x hx)) hf _ _ (Nat.le_refl _)
    (by rw [← hgood, List.length_map]; exact Nat.le_refl _) _ s).symm

/-- A session: a request in two reports, an empty read, a failing read, another request. -/
def sampleSession : List TOp :=
  [.read ⟨[0x01, 0x02, 0x55, 0x02, 0x00], none⟩, .read ⟨[0x01, 0x01, 0x11, 0xED], none⟩,
   .write [0x0D, 0x00, 0x55, 0x04, 0x00, 0x12, 0xFF, 0xFF, 0xEC] ⟨9, none⟩, .read ⟨[], none⟩, .read ⟨[0x07], some .noProgress⟩,
   .read ⟨[0x01, 0x00, 0x55, 0x02, 0x00, 0x11, 0xED], none⟩]

example : (∀ res, .read res ∈ sampleSession → res.data.length ≤ 1024 ∧ res.err ≠ some .eof) ∧
    (∀ p res, .write p res ∈ sampleSession → p.length ≤ 21844) ∧
    FailsBetweenFrames defaultReportDefs (readsOf sampleSession) := by
  refine ⟨by simp [sampleSession], by simp [sampleSession], ?_⟩
  intro pre x y rest h hy
  simp only [readsOf, sampleSession, List.filterMap_cons, List.filterMap_nil] at h
  match pre, h with
  | [], h => cases h; exact absurd ⟨rfl, by decide⟩ hy
  | [_], h => cases h; intro id lc d ds h; cases h; intro _; decide
  | [_, _], h => cases h; intro id lc d ds h; cases h
  | [_, _, _], h => cases h; exact absurd ⟨rfl, by decide⟩ hy
  | [_, _, _, _], h => cases h
  | _ :: _ :: _ :: _ :: _ :: pre, h =>
    simp only [List.cons_append, List.cons.injEq, List.nil_eq, List.append_eq_nil_iff, reduceCtorEq, and_false] at h

/-- C44 fails: a request in two reports with a read in between that gives nothing. The live server answers nothing (it has
lost the first half), the replay answers. -/
theorem C44_fails : ∃ ops : List TOp, (∀ res, .read res ∈ ops → res.data.length ≤ 1024 ∧ res.err ≠ some .eof) ∧
    (∀ p res, .write p res ∈ ops → p.length ≤ 21844) ∧
    (serve devGeneral (fun _ => ⟨2024, 1, 2, 3, 4⟩) (fun _ n => n) defaultReportDefs (readsOf ops) (Srv.init DevGeneral.zero) >>=
      fun x => .ret x.2) = .ret [] ∧
    ∀ k, (serve devGeneral (fun _ => ⟨2024, 1, 2, 3, 4⟩) (fun _ n => n) defaultReportDefs
      (dirReads dirIn 1024 (2 + k) (newReader (runTracer [] ops).1 none)) (Srv.init DevGeneral.zero) >>=
      fun x => .ret x.2) = .ret [[0x55, 0x04, 0x00, 0x12, 0xFF, 0xFF, 0xEC]] := by
  let ops2 : List TOp := [.read ⟨[0x01, 0x02, 0x55, 0x02, 0x00], none⟩, .read ⟨[0x01, 0x01, 0x11, 0xED], none⟩]
  refine ⟨[.read ⟨[0x01, 0x02, 0x55, 0x02, 0x00], none⟩, .read ⟨[], none⟩, .read ⟨[0x01, 0x01, 0x11, 0xED], none⟩],
    by simp, by simp, by decide +kernel, fun k => ?_⟩
  have h2 := C44_replay_same_partial devGeneral (fun _ => ⟨2024, 1, 2, 3, 4⟩) (fun _ n => n) defaultReportDefs ops2
    (by simp [ops2]) (by simp [ops2]) (by
      intro pre x y rest h hy
      match pre, h with
      | [], h => cases h; exact absurd ⟨rfl, by decide⟩ hy
      | [_], h => cases h
      | _ :: _ :: pre, h =>
        simp only [ops2, readsOf, List.filterMap_cons, List.filterMap_nil, List.cons_append, List.cons.injEq, List.nil_eq,
          List.append_eq_nil_iff, reduceCtorEq, and_false] at h) k (Srv.init DevGeneral.zero)
  have hn : ((readsOf ops2).filter (fun x => decide (Recorded x))).length = 2 := by decide
  have e : (runTracer [] [.read ⟨[0x01, 0x02, 0x55, 0x02, 0x00], none⟩, .read ⟨[], none⟩,
      .read ⟨[0x01, 0x01, 0x11, 0xED], none⟩]).1 = (runTracer [] ops2).1 := by
    rw [C41_tracer, C41_tracer]; rfl
  rw [e]
  simp only [hn] at h2
  rw [h2]
  decide +kernel

/-- `C44_replayed_reads` and `C44_replay_same_partial`: the session above, replayed from its trace. -/
example (k : Nat) : dirReads dirIn 1024 (3 + k) (newReader (runTracer [] sampleSession).1 none) =
    [⟨[0x01, 0x02, 0x55, 0x02, 0x00], none⟩, ⟨[0x01, 0x01, 0x11, 0xED], none⟩, ⟨[0x01, 0x00, 0x55, 0x02, 0x00, 0x11, 0xED], none⟩] ++
      List.replicate k ⟨[], some .eof⟩ :=
  C44_replayed_reads sampleSession (by simp [sampleSession]) (by simp [sampleSession]) k

end Props
