import Verif.Lemmas.Online
import Verif.Lemmas.Replay
import Verif.Props.Replay

/-! # Properties C74-C76: the running server, replays that do not end, sending a trace -/

namespace Props
open Go Spec Ipod Ipod.Hid Ipod.Trace

/-! ## C74 -/

/-- The server after the results `reads` of its `Read` calls, from its start: what it has written, and whether it still
runs. -/
abbrev observed {σ : Type} (D : Device σ) (clock : Clock) (grow : Growth) (defs : List ReportDef) (reads : List ReadRes)
    (s : Srv σ) : Out (Live σ × Bool) :=
  Live.run D clock grow defs reads (Live.start s)

/-- C74. Nothing is postponed: what the running server has written when it calls `Read` again is all that it would write if
nothing were to come any more. -/
theorem C74_online {σ : Type} (D : Device σ) (clock : Clock) (grow : Growth) (defs : List ReportDef)
    (hd : ∀ d ∈ defs, 1 ≤ d.len) (reads : List ReadRes) (s : Srv σ) :
    (observed D clock grow defs reads s >>= fun x => .ret (x.1.srv, x.1.written)) = serve D clock grow defs reads s := by
  have hd : ∀ d ∈ defs, 0 ≤ d.maxPayload := fun d h => by have := hd d h; unfold ReportDef.maxPayload; omega
  cases reads with
  | nil => rfl
  | cons r rs =>
    have h := run_rest D clock grow hd (r :: rs) rs.length (by simp) ⟨[], []⟩ s []
    have hb := batch_rest (D := D) (clock := clock) (grow := grow) (defs := defs) rs.length ((r :: rs).map rawReadReport) ⟨[], []⟩ s
    have he : (⟨[], []⟩ : Slice).reset = ⟨[], []⟩ := rfl
    rw [he] at hb
    rw [← hb] at h
    have ha : ∀ x : Out (Srv σ × List Bytes), after [] x = x := by intro x; cases x <;> rfl
    rw [ha] at h
    exact h

example : (observed devGeneral (fun _ => ⟨2024, 1, 2, 3, 4⟩) (fun _ n => n) defaultReportDefs
      [⟨[0x01, 0x00, 0x55, 0x02, 0x00, 0x11, 0xED], none⟩] (Srv.init DevGeneral.zero) >>= fun x => .ret (x.1.srv, x.1.written)) =
    serve devGeneral (fun _ => ⟨2024, 1, 2, 3, 4⟩) (fun _ n => n) defaultReportDefs
      [⟨[0x01, 0x00, 0x55, 0x02, 0x00, 0x11, 0xED], none⟩] (Srv.init DevGeneral.zero) :=
  C74_online _ _ _ _ (by decide) _ _

theorem run_append {σ : Type} {D : Device σ} {clock : Clock} {grow : Growth} {defs : List ReportDef} (pre rest : List ReadRes)
    (l : Live σ) :
    Live.run D clock grow defs (pre ++ rest) l =
      Live.run D clock grow defs pre l >>= fun x => if x.2 then Live.run D clock grow defs rest x.1 else .ret x := by
  induction pre generalizing l with
  | nil => rfl
  | cons r pre ih =>
    simp only [List.cons_append, Live.run]
    cases l.onRead D clock grow defs r with
    | panic => rfl
    | ret x =>
      cases x with
      | none => rfl
      | some l => simp only [Out.bind_ret, ih]

theorem onRead_written {σ : Type} {D : Device σ} {clock : Clock} {grow : Growth} {defs : List ReportDef} {l l' : Live σ}
    {r : ReadRes} (h : l.onRead D clock grow defs r = .ret (some l')) : ∃ w, l'.written = l.written ++ w := by
  have frame : ∀ buf, (l.frame D clock buf >>= fun l => Out.ret (some l)) = .ret (some l') → ∃ w, l'.written = l.written ++ w := by
    intro buf h
    unfold Live.frame at h
    cases hp : processFrame D clock l.srv buf with
    | panic => rw [hp] at h; cases h
    | ret x => rw [hp] at h; cases h; exact ⟨x.2, rfl⟩
  have same : ∀ b, Out.ret (some { l with buf := b }) = .ret (some l') → ∃ w, l'.written = l.written ++ w := by
    intro b h; cases h; exact ⟨[], by simp⟩
  rw [Live.onRead] at h
  split at h
  · split at h
    · cases h
    · exact same _ h
  · split at h
    · exact same _ h
    · split at h
      · cases h
      · simp only at h
        split at h
        · exact frame _ h
        · split at h
          · exact same _ h
          · split at h
            · exact same _ h
            · split at h
              · exact frame _ h
              · exact same _ h

theorem run_written {σ : Type} {D : Device σ} {clock : Clock} {grow : Growth} {defs : List ReportDef} (reads : List ReadRes)
    (l : Live σ) {x : Live σ × Bool} (h : Live.run D clock grow defs reads l = .ret x) : ∃ w, x.1.written = l.written ++ w := by
  induction reads generalizing l with
  | nil => cases h; exact ⟨[], by simp⟩
  | cons r rs ih =>
    simp only [Live.run] at h
    cases hr : l.onRead D clock grow defs r with
    | panic => rw [hr] at h; cases h
    | ret y =>
      rw [hr] at h
      cases y with
      | none => cases h; exact ⟨[], by simp⟩
      | some l1 =>
        obtain ⟨w1, h1⟩ := onRead_written hr
        obtain ⟨w2, h2⟩ := ih l1 h
        exact ⟨w1 ++ w2, by rw [h2, h1, List.append_assoc]⟩

/-- C74. What has been written stays: reading more only adds frames behind. -/
theorem C74_only_adds {σ : Type} (D : Device σ) (clock : Clock) (grow : Growth) (defs : List ReportDef) (pre more : List ReadRes)
    (s : Srv σ) {l l' : Live σ} {b b' : Bool} (h : observed D clock grow defs pre s = .ret (l, b))
    (h' : observed D clock grow defs (pre ++ more) s = .ret (l', b')) : ∃ w, l'.written = l.written ++ w := by
  rw [observed, run_append, show Live.run D clock grow defs pre (Live.start s) = .ret (l, b) from h] at h'
  cases b with
  | false => cases h'; exact ⟨[], by simp⟩
  | true => exact run_written more l h'

theorem onRead_none {σ : Type} {D : Device σ} {clock : Clock} {grow : Growth} {defs : List ReportDef} {l : Live σ}
    {r : ReadRes} : l.onRead D clock grow defs r = .ret none ↔ r.err = some .eof := by
  have frame : ∀ buf, (l.frame D clock buf >>= fun l => Out.ret (some l)) ≠ .ret none := by
    intro buf h
    cases hp : l.frame D clock buf with
    | panic => rw [hp] at h; cases h
    | ret x => rw [hp] at h; cases h
  constructor
  · intro h
    rw [Live.onRead] at h
    split at h
    · rename_i e he
      split at h
      · rename_i hee
        subst hee
        obtain ⟨data, err⟩ := r
        cases err with
        | some e => simp only [rawReadReport, Except.error.injEq] at he; rw [he]
        | none =>
          simp only [rawReadReport] at he
          split at he <;> cases he
      · cases h
    · split at h
      · cases h
      · split at h
        · cases h
        · simp only at h
          split at h
          · exact absurd h (frame _)
          · split at h
            · cases h
            · split at h
              · cases h
              · split at h
                · exact absurd h (frame _)
                · cases h
  · intro h
    obtain ⟨data, err⟩ := r
    simp only at h
    subst h
    rfl

/-- C74. The server stops exactly when a `Read` returns `io.EOF` (unless it has panicked before): no other error, and no
data, makes it stop. -/
theorem C74_stops_iff {σ : Type} (D : Device σ) (clock : Clock) (grow : Growth) (defs : List ReportDef) (reads : List ReadRes)
    (s : Srv σ) :
    (∃ l, observed D clock grow defs reads s = .ret (l, false)) ↔
      ∃ pre x post, reads = pre ++ x :: post ∧ x.err = some .eof ∧ observed D clock grow defs pre s ≠ .panic := by
  have key : ∀ (reads : List ReadRes) (l : Live σ), (∃ l', Live.run D clock grow defs reads l = .ret (l', false)) ↔
      ∃ pre x post, reads = pre ++ x :: post ∧ x.err = some .eof ∧ Live.run D clock grow defs pre l ≠ .panic := by
    intro reads
    induction reads with
    | nil =>
      intro l
      constructor
      · rintro ⟨l', h⟩; simp [Live.run] at h
      · rintro ⟨pre, x, post, h, _⟩; simp at h
    | cons r rs ih =>
      intro l
      constructor
      · rintro ⟨l', h⟩
        simp only [Live.run] at h
        cases hr : l.onRead D clock grow defs r with
        | panic => rw [hr] at h; cases h
        | ret y =>
          rw [hr] at h
          cases y with
          | none => exact ⟨[], r, rs, rfl, onRead_none.1 hr, by simp [Live.run]⟩
          | some l1 =>
            obtain ⟨pre, x, post, h1, h2, h3⟩ := (ih l1).1 ⟨l', h⟩
            refine ⟨r :: pre, x, post, by rw [h1]; rfl, h2, ?_⟩
            simp only [Live.run, hr, Out.bind_ret]
            exact h3
      · rintro ⟨pre, x, post, h1, h2, h3⟩
        cases pre with
        | nil =>
          simp only [List.nil_append, List.cons.injEq] at h1
          obtain ⟨rfl, rfl⟩ := h1
          exact ⟨l, by simp only [Live.run, onRead_none.2 h2, Out.bind_ret]⟩
        | cons r' pre =>
          simp only [List.cons_append, List.cons.injEq] at h1
          obtain ⟨rfl, rfl⟩ := h1
          simp only [Live.run] at h3 ⊢
          cases hr : l.onRead D clock grow defs r with
          | panic => rw [hr] at h3; exact absurd rfl h3
          | ret y =>
            rw [hr] at h3
            cases y with
            | none => exact ⟨l, rfl⟩
            | some l1 => exact (ih l1).2 ⟨pre, x, post, rfl, h2, h3⟩
  exact key reads _

example : (∀ d ∈ defaultReportDefs, 1 ≤ d.len) ∧ (∀ d ∈ legacyReportDefs, 1 ≤ d.len) := by decide

/-- A request in two reports: the answer has been written when the server waits for the third. -/
example : (observed devGeneral (fun _ => ⟨2024, 1, 2, 3, 4⟩) (fun _ n => n) defaultReportDefs
    [⟨[0x01, 0x02, 0x55, 0x02, 0x00], none⟩, ⟨[0x01, 0x01, 0x11, 0xED], none⟩] (Srv.init DevGeneral.zero) >>=
      fun x => .ret (x.1.written, x.2)) = .ret ([[0x55, 0x04, 0x00, 0x12, 0xFF, 0xFF, 0xEC]], true) := by decide +kernel

/-! ## C75 -/

/-- The first `n` reads of a replay (main.go:182-186) of a trace file. -/
def replayReads (content : Bytes) (ending : Option Err) (n : Nat) : List ReadRes :=
  dirReads dirIn 1024 n (newReader content ending)

theorem dirReads_err {dir : Trace.Dir} {size : Nat} (k : Nat) (r : Reader) {e : Err} (h : r.err = some e) :
    dirReads dir size k r = List.replicate k ⟨[], some e⟩ := by
  induction k generalizing r with
  | zero => rfl
  | succ k ih =>
    have : dirReaderRead dir size r = (r, ⟨[], some e⟩) := by rw [dirReaderRead, h]
    rw [dirReads, this, ih r h]
    rfl

theorem dirReads_shape (dir : Trace.Dir) (size : Nat) (m : Nat) (r : Reader) (hm : r.content.length < m) (hr : r.err = none) :
    ∃ reads e, LastError r.content r.ending e ∧ reads.length ≤ r.content.length ∧
      (∀ x ∈ reads, x.err = none ∨ x.err = some Err.badTrace) ∧
      ∀ k, dirReads dir size (reads.length + k) r = reads ++ List.replicate k ⟨[], some e⟩ := by
  induction m generalizing r with
  | zero => omega
  | succ m ih =>
    rcases dirReaderRead_spec dir size r hr with ⟨⟨h1, h2, h3, h4⟩, h5⟩ | ⟨e, h1, h2, h3⟩
    · obtain ⟨reads, e, g1, g2, g3, g4⟩ := ih _ (by omega) h1
      refine ⟨(dirReaderRead dir size r).2 :: reads, e, ?_, by simp only [List.length_cons]; omega, ?_, ?_⟩
      · unfold LastError at g1 ⊢
        rw [← h4, ← h2]; exact g1
      · intro x hx
        rcases List.mem_cons.1 hx with rfl | hx
        · exact h5
        · exact g3 x hx
      · intro k
        rw [List.length_cons, Nat.add_right_comm, dirReads, g4]
        rfl
    · refine ⟨[], e, h3, by simp, by simp, fun k => ?_⟩
      cases k with
      | zero => rfl
      | succ k =>
        rw [List.length_nil, Nat.zero_add, dirReads, h2, dirReads_err k _ h1]
        rfl

/-- C75. The reads of a replay: finitely many messages and refused lines, and then one error for ever: `bufio.ErrTooLong` if
some line has 64 KiB or more, otherwise what the file ended with. -/
theorem C75_reads (content : Bytes) (ending : Option Err) :
    ∃ reads e, LastError content ending e ∧ reads.length ≤ content.length ∧
      (∀ x ∈ reads, x.err = none ∨ x.err = some Err.badTrace) ∧
      ∀ k, replayReads content ending (reads.length + k) = reads ++ List.replicate k ⟨[], some e⟩ :=
  dirReads_shape dirIn 1024 _ (newReader content ending) (Nat.lt_succ_self _) rfl

theorem replayReads_take (content : Bytes) (ending : Option Err) (n k : Nat) :
    (replayReads content ending (n + k)).take n = replayReads content ending n := by
  unfold replayReads
  generalize newReader content ending = r
  induction n generalizing r with
  | zero => simp [dirReads]
  | succ n ih => rw [Nat.add_right_comm, dirReads, dirReads, List.take_succ_cons, ih]

/-- C75 (exactly the traces for which it holds). Replaying a trace file ends, unless the server panics, iff the file can be read
without error and has no line of 64 KiB or more. Missing: the other files, for which the server never stops
(`C75_runs_for_ever`). -/
theorem C75_replay_ends_iff_partial {σ : Type} (D : Device σ) (clock : Clock) (grow : Growth) (defs : List ReportDef)
    (content : Bytes) (ending : Option Err) (he : ending ≠ some .eof) (s : Srv σ)
    (hp : ∀ n, observed D clock grow defs (replayReads content ending n) s ≠ .panic) :
    (∃ n l, observed D clock grow defs (replayReads content ending n) s = .ret (l, false)) ↔
      ending = none ∧ ¬ LongLine content := by
  obtain ⟨reads, e, h1, _, h3, h4⟩ := C75_reads content ending
  have heof : e = .eof ↔ ending = none ∧ ¬ LongLine content := by
    rcases h1 with ⟨h, rfl⟩ | ⟨h, rfl⟩
    · simp [h]
    · cases ending with
      | none => simp [h]
      | some e => simp only [Option.getD_some, reduceCtorEq, false_and, iff_false]; exact fun h => he (by rw [h])
  rw [← heof]
  constructor
  · rintro ⟨n, l, hl⟩
    obtain ⟨pre, x, post, g1, g2, _⟩ := (C74_stops_iff D clock grow defs _ s).1 ⟨l, hl⟩
    have hmem : x ∈ replayReads content ending (reads.length + n) := by
      have := replayReads_take content ending n reads.length
      rw [Nat.add_comm n] at this
      have hx : x ∈ replayReads content ending n := by rw [g1]; simp
      rw [← this] at hx
      exact List.mem_of_mem_take hx
    rw [h4] at hmem
    rcases List.mem_append.1 hmem with h | h
    · rcases h3 x h with h | h <;> rw [h] at g2 <;> simp at g2
    · rw [(List.mem_replicate.1 h).2] at g2
      simpa using g2
  · intro h
    refine ⟨reads.length + 1, ?_⟩
    refine (C74_stops_iff D clock grow defs _ s).2 ⟨reads, ⟨[], some e⟩, [], ?_, by rw [h], ?_⟩
    · rw [h4]; rfl
    · have := hp reads.length
      have h0 := h4 0
      simp only [Nat.add_zero, List.replicate_zero, List.append_nil] at h0
      rwa [h0] at this

/-- C75, the other files. The server never stops (unless it panics), although it has written all it is ever going to write after
reading the file: it asks again and again and gets the same error. -/
theorem C75_runs_for_ever {σ : Type} (D : Device σ) (clock : Clock) (grow : Growth) (defs : List ReportDef)
    (content : Bytes) (ending : Option Err) (he : ending ≠ some .eof) (h : LongLine content ∨ ending ≠ none) (s : Srv σ) (n : Nat)
    {l : Live σ} {b : Bool} (hn : observed D clock grow defs (replayReads content ending n) s = .ret (l, b)) :
    b = true ∧ (content.length ≤ n → ∀ k, ∃ l', observed D clock grow defs (replayReads content ending (n + k)) s = .ret (l', true) ∧
      l'.srv = l.srv ∧ l'.written = l.written) := by
  obtain ⟨reads, e, h1, h2, h3, h4⟩ := C75_reads content ending
  have heof : e ≠ .eof := by
    rcases h1 with ⟨_, rfl⟩ | ⟨h', rfl⟩
    · decide
    · cases ending with
      | none => rcases h with h | h
                · exact absurd h h'
                · exact absurd rfl h
      | some e => exact fun h => he (by rw [← h]; rfl)
  have hmem : ∀ n, ∀ x ∈ replayReads content ending n, x.err ≠ some .eof := by
    intro n x hx
    have := replayReads_take content ending n reads.length
    rw [← this] at hx
    have hx := List.mem_of_mem_take hx
    rw [Nat.add_comm, h4] at hx
    rcases List.mem_append.1 hx with h | h
    · rcases h3 x h with h | h <;> rw [h] <;> simp
    · rw [(List.mem_replicate.1 h).2]
      simpa using heof
  have hb : b = true := by
    cases b with
    | true => rfl
    | false =>
      obtain ⟨pre, x, post, g1, g2, _⟩ := (C74_stops_iff D clock grow defs _ s).1 ⟨l, hn⟩
      exact absurd g2 (hmem n x (by rw [g1]; simp))
  refine ⟨hb, fun hlen k => ?_⟩
  subst hb
  have hsplit : replayReads content ending (n + k) = replayReads content ending n ++ List.replicate k ⟨[], some e⟩ := by
    obtain ⟨j, rfl⟩ : ∃ j, n = reads.length + j := ⟨n - reads.length, by omega⟩
    rw [Nat.add_assoc, h4, h4, List.append_assoc, List.replicate_append_replicate]
  have hspin : ∀ k (l : Live σ), ∃ l', Live.run D clock grow defs (List.replicate k ⟨[], some e⟩) l = .ret (l', true) ∧
      l'.srv = l.srv ∧ l'.written = l.written := by
    intro k
    induction k with
    | zero => intro l; exact ⟨l, rfl, rfl, rfl⟩
    | succ k ih =>
      intro l
      obtain ⟨l', g1, g2, g3⟩ := ih { l with buf := l.buf.reset }
      refine ⟨l', ?_, g2, g3⟩
      have hr : l.onRead D clock grow defs ⟨[], some e⟩ = .ret (some { l with buf := l.buf.reset }) := by
        show (if e = .eof then Out.ret none else _) = _
        exact if_neg heof
      rw [List.replicate_succ, Live.run, hr]
      exact g1
  rw [observed, hsplit, run_append, show Live.run D clock grow defs (replayReads content ending n) (Live.start s) = .ret (l, true) from hn]
  exact hspin k l

/-- C75 fails: a file with one line that is too long. It is not even a matter of the server: no frame is ever read. -/
theorem C75_fails {σ : Type} (D : Device σ) (clock : Clock) (grow : Growth) (defs : List ReportDef) (s : Srv σ) :
    ∃ content : Bytes, ∀ n, ∃ l, observed D clock grow defs (replayReads content none n) s = .ret (l, true) ∧ l.written = [] := by
  obtain ⟨c, hc1, hc2⟩ : ∃ c : Bytes, (0x0A : UInt8) ∉ c ∧ 65536 ≤ c.length :=
    ⟨List.replicate 65536 0x20, fun h => by have := (List.mem_replicate.1 h).2; revert this; decide,
      by rw [List.length_replicate]; exact Nat.le_refl _⟩
  refine ⟨c, fun n => ?_⟩
  have hl : scanLine c = .tooLong := by
    unfold scanLine
    rw [if_neg (by intro h; rw [h] at hc2; simp at hc2)]
    simp only
    rw [if_pos]
    rw [takeWhile_self hc1]
    exact hc2
  have hreads : ∀ n, replayReads c none n = List.replicate n ⟨[], some .tooLong⟩ := by
    intro n
    cases n with
    | zero => rfl
    | succ n =>
      have h1 : readMsgLoop (newReader c none) Msg.zero =
          ({ newReader c none with err := some .tooLong }, Msg.zero, some .tooLong) := by
        rw [readMsgLoop]
        split
        · rename_i h; rw [newReader, hl] at h; cases h
        · rfl
        · rename_i h; rw [newReader, hl] at h; cases h
      have h2 : dirReaderRead dirIn 1024 (newReader c none) =
          ({ newReader c none with err := some .tooLong }, ⟨[], some .tooLong⟩) := by
        rw [dirReaderRead]
        simp only [newReader]
        split
        · rename_i h; rw [newReader] at h1; rw [h1] at h; cases h
        · rename_i h; rw [newReader] at h1; rw [h1] at h; cases h; rfl
      rw [replayReads, dirReads, h2, dirReads_err n _ (e := .tooLong) rfl]
      rfl
  rw [hreads]
  have : ∀ n (l : Live σ), ∃ l', Live.run D clock grow defs (List.replicate n ⟨[], some .tooLong⟩) l = .ret (l', true) ∧
      l'.written = l.written := by
    intro n
    induction n with
    | zero => intro l; exact ⟨l, rfl, rfl⟩
    | succ n ih => intro l; exact ih { l with buf := l.buf.reset }
  exact this n _

example : ¬ LongLine [0x3C, 0x20, 0x30, 0x31, 0x0A] := by
  rintro ⟨pre, mid, post, h, _, h2⟩
  have := congrArg List.length h
  simp only [List.length_cons, List.length_nil, List.length_append] at this
  omega

/-- A trace with one request: the server does not panic on it, whatever number of reads is looked at. -/
example (n : Nat) : observed devGeneral (fun _ => ⟨2024, 1, 2, 3, 4⟩) (fun _ n => n) defaultReportDefs
    (replayReads (traceText [⟨0, 0, [0x01, 0x00, 0x55, 0x02, 0x00, 0x11, 0xED]⟩]) none n) (Srv.init DevGeneral.zero) ≠ .panic := by
  have hm : ∀ m ∈ [(⟨0, 0, [0x01, 0x00, 0x55, 0x02, 0x00, 0x11, 0xED]⟩ : Msg)], Traceable m := by
    intro m hm
    simp only [List.mem_cons, List.not_mem_nil, or_false] at hm
    subst hm
    exact ⟨.inl rfl, by decide, by decide⟩
  cases n with
  | zero => intro h; cases h
  | succ k =>
    have h := C42_direction_reader _ hm dirIn 1024 none k
    rw [show ([(⟨0, 0, [0x01, 0x00, 0x55, 0x02, 0x00, 0x11, 0xED]⟩ : Msg)].filter (·.dir = dirIn)).length = 1 from by decide,
      Nat.add_comm] at h
    rw [replayReads, h, observed, run_append]
    have h1 : (Live.run devGeneral (fun _ => ⟨2024, 1, 2, 3, 4⟩) (fun _ n => n) defaultReportDefs
        (([(⟨0, 0, [0x01, 0x00, 0x55, 0x02, 0x00, 0x11, 0xED]⟩ : Msg)].filter (·.dir = dirIn)).map fun m => ⟨m.data.take 1024, none⟩)
        (Live.start (Srv.init DevGeneral.zero)) >>= fun x => .ret x.2) = .ret true := by decide +kernel
    match hr : Live.run devGeneral (fun _ => ⟨2024, 1, 2, 3, 4⟩) (fun _ n => n) defaultReportDefs
        (([(⟨0, 0, [0x01, 0x00, 0x55, 0x02, 0x00, 0x11, 0xED]⟩ : Msg)].filter (·.dir = dirIn)).map fun m => ⟨m.data.take 1024, none⟩)
        (Live.start (Srv.init DevGeneral.zero)) with
    | .panic => rw [hr] at h1; cases h1
    | .ret (l, b) =>
      rw [hr] at h1
      simp only [Out.bind_ret, Out.ret.injEq] at h1
      subst h1
      rw [hr]
      cases k with
      | zero => intro h; cases h
      | succ k =>
        have : l.onRead devGeneral (fun _ => ⟨2024, 1, 2, 3, 4⟩) (fun _ n => n) defaultReportDefs ⟨[], some .eof⟩ = .ret none := rfl
        simp only [Option.getD_none, List.replicate_succ, Out.bind_ret, Live.run, this]
        intro h; cases h

example : LongLine (0x0A :: List.replicate 70000 0x3C) :=
  ⟨[0x0A], List.replicate 70000 0x3C, [], by rw [List.append_nil]; rfl,
    fun h => by have := (List.mem_replicate.1 h).2; revert this; decide, by rw [List.length_replicate]; decide⟩

/-! ## C76 -/

/-- A read that is a report. -/
def IsReport (x : ReadRes) : Prop := x.err = none ∧ 3 ≤ x.data.length

instance (x : ReadRes) : Decidable (IsReport x) := by unfold IsReport; infer_instance

theorem sendLoop_eq (reads : List ReadRes) (h : ∀ x ∈ reads, x.data.length ≤ 1024) :
    sendLoop reads = (reads.takeWhile (fun x => decide (IsReport x))).map (·.data) := by
  induction reads with
  | nil => rfl
  | cons x reads ih =>
    obtain ⟨data, err⟩ := x
    have hx := h ⟨data, err⟩ (by simp)
    have ih := ih (fun x hx => h x (by simp [hx]))
    by_cases hr : IsReport ⟨data, err⟩
    · obtain ⟨rfl, hd⟩ := hr
      rw [List.takeWhile_cons_of_pos (by simpa using ⟨rfl, hd⟩), List.map_cons, ← ih]
      match data, hd with
      | id :: lc :: d0 :: ds, _ =>
        have : rawReadReport ⟨id :: lc :: d0 :: ds, none⟩ = .ok ⟨id, lc, d0 :: ds⟩ := by
          simp only [rawReadReport]
          rw [List.take_of_length_le hx]
        rw [sendLoop, this]
        rfl
    · rw [List.takeWhile_cons_of_neg (by simpa using hr), List.map_nil]
      cases err with
      | some e => rfl
      | none =>
        have hd : data.length < 3 := by
          simp only [IsReport, true_and] at hr
          omega
        have : rawReadReport ⟨data, none⟩ = .error .noProgress := by
          simp only [rawReadReport]
          rw [List.take_of_length_le hx]
          match data, hd with
          | [], _ => rfl
          | [_], _ => rfl
          | [_, _], _ => rfl
        rw [sendLoop, this]

/-- C76 (as far as it holds). From a well-formed trace file `send` writes the incoming messages to the device, one `Write` each,
in order, cut to 1024 bytes, up to the first message of less than three bytes. -/
theorem C76_sent (ms : List Msg) (h : ∀ m ∈ ms, Traceable m) (ending : Option Err) (k : Nat) :
    sendLoop (replayReads (traceText ms) ending ((ms.filter (·.dir = 0)).length + k)) =
      (((ms.filter (·.dir = 0)).takeWhile (fun m => decide (3 ≤ m.data.length))).map (fun m => m.data.take 1024)) := by
  rw [replayReads, C42_direction_reader ms h dirIn 1024 ending k, sendLoop_eq]
  · generalize ms.filter (·.dir = 0) = l
    have stop : (List.replicate k (⟨[], some (ending.getD .eof)⟩ : ReadRes)).takeWhile (fun x => decide (IsReport x)) = [] := by
      cases k with
      | zero => rfl
      | succ k => rw [List.replicate_succ, List.takeWhile_cons_of_neg (by simp [IsReport])]
    induction l with
    | nil => rw [List.map_nil, List.nil_append, stop]; rfl
    | cons m l ih =>
      by_cases hm : 3 ≤ m.data.length
      · rw [List.takeWhile_cons_of_pos (by simpa using hm), List.map_cons, List.map_cons, List.cons_append,
          List.takeWhile_cons_of_pos (by simp only [IsReport, List.length_take, true_and, decide_eq_true_eq]; omega), List.map_cons, ih]
      · rw [List.takeWhile_cons_of_neg (by simpa using hm), List.map_cons, List.cons_append,
          List.takeWhile_cons_of_neg (by simp only [IsReport, List.length_take, true_and, decide_eq_true_eq]; omega)]
        rfl
  · intro x hx
    rcases List.mem_append.1 hx with hx | hx
    · obtain ⟨m, _, rfl⟩ := List.mem_map.1 hx
      simp only [List.length_take]
      omega
    · rw [(List.mem_replicate.1 hx).2]; simp

/-- C76 (exactly the files for which it holds). `send` writes all incoming messages of a well-formed trace file unchanged iff
each of them has 3 to 1024 bytes. Missing: files with other messages, see `C76_fails`. -/
theorem C76_all_sent_iff_partial (ms : List Msg) (h : ∀ m ∈ ms, Traceable m) (ending : Option Err) (k : Nat) :
    sendLoop (replayReads (traceText ms) ending ((ms.filter (·.dir = 0)).length + k)) = (ms.filter (·.dir = 0)).map (·.data) ↔
      ∀ m ∈ ms, m.dir = 0 → 3 ≤ m.data.length ∧ m.data.length ≤ 1024 := by
  rw [C76_sent ms h ending k]
  have e : (∀ m ∈ ms, m.dir = 0 → 3 ≤ m.data.length ∧ m.data.length ≤ 1024) ↔
      ∀ m ∈ ms.filter (·.dir = 0), 3 ≤ m.data.length ∧ m.data.length ≤ 1024 := by
    simp only [List.mem_filter, decide_eq_true_eq, and_imp]
  rw [e]
  generalize ms.filter (·.dir = 0) = l
  induction l with
  | nil => simp
  | cons m l ih =>
    by_cases hm : 3 ≤ m.data.length
    · rw [List.takeWhile_cons_of_pos (by simpa using hm), List.map_cons, List.map_cons, List.cons.injEq,
        show m.data.take 1024 = m.data ↔ m.data.length ≤ 1024 from
          ⟨fun h => by rw [← h, List.length_take]; omega, List.take_of_length_le⟩]
      simp only [List.forall_mem_cons, hm, true_and]
      exact and_congr_right fun _ => ih
    · rw [List.takeWhile_cons_of_neg (by simpa using hm)]
      simp only [List.map_nil, List.map_cons, reduceCtorEq, List.forall_mem_cons, hm, false_and]

/-- C76: sending the trace of a live session. The device is given the reads of that session again, those that were recorded, up to
the first of less than three bytes. -/
theorem C76_recorded_session (ops : List TOp) (hr : ∀ res, .read res ∈ ops → res.data.length ≤ 1024)
    (hw : ∀ p res, .write p res ∈ ops → p.length ≤ 21844) (k : Nat) :
    let recorded := (readsOf ops).filter (fun x => decide (Recorded x))
    sendLoop (replayReads (runTracer [] ops).1 none (recorded.length + k)) =
      (recorded.takeWhile (fun x => decide (3 ≤ x.data.length))).map (·.data) := by
  intro recorded
  have hread : ∀ x ∈ recorded, x.err = none ∧ x.data.length ≤ 1024 := by
    intro x hx
    obtain ⟨h1, h2⟩ := List.mem_filter.1 hx
    obtain ⟨op, hop, ho⟩ := List.mem_filterMap.1 h1
    have h2 : Recorded x := by simpa using h2
    split at ho
    · cases ho; exact ⟨h2.1, hr _ hop⟩
    · cases ho
  rw [replayReads, C44_replayed_reads ops hr hw k, sendLoop_eq]
  · have stop : (List.replicate k (⟨[], some .eof⟩ : ReadRes)).takeWhile (fun x => decide (IsReport x)) = [] := by
      cases k with
      | zero => rfl
      | succ k => rw [List.replicate_succ, List.takeWhile_cons_of_neg (by simp [IsReport])]
    change ((recorded ++ _).takeWhile _).map _ = _
    generalize recorded = l at hread
    induction l with
    | nil => rw [List.nil_append, stop]; rfl
    | cons x l ih =>
      have hx := hread x (by simp)
      have ih := ih (fun y hy => hread y (by simp [hy]))
      by_cases h3 : 3 ≤ x.data.length
      · rw [List.takeWhile_cons_of_pos (by simpa using h3), List.cons_append,
          List.takeWhile_cons_of_pos (by rw [decide_eq_true_eq]; exact ⟨hx.1, h3⟩), List.map_cons, List.map_cons, ih]
      · rw [List.takeWhile_cons_of_neg (by simpa using h3), List.cons_append,
          List.takeWhile_cons_of_neg (by rw [decide_eq_true_eq]; exact fun h : IsReport x => h3 h.2)]
  · intro x hx
    rcases List.mem_append.1 hx with hx | hx
    · exact (hread x hx).2
    · rw [(List.mem_replicate.1 hx).2]; simp

/-- `C76_sent`, `C76_all_sent_iff_partial` and `C76_recorded_session` on short recordings. -/
example (k : Nat) : sendLoop (replayReads (traceText [⟨0, 0, [1, 0, 0x55]⟩, ⟨1, 0, [2]⟩, ⟨0, 0, [3]⟩, ⟨0, 0, [4, 0, 5]⟩]) none (3 + k)) =
    [[1, 0, 0x55]] :=
  C76_sent _ (by simp [Traceable]) none k

example (k : Nat) : sendLoop (replayReads (traceText [⟨0, 0, [1, 0, 0x55]⟩, ⟨1, 0, [2]⟩]) none (1 + k)) = [[1, 0, 0x55]] :=
  (C76_all_sent_iff_partial [⟨0, 0, [1, 0, 0x55]⟩, ⟨1, 0, [2]⟩] (by simp [Traceable]) none k).2 (by simp)

example (k : Nat) : sendLoop (replayReads (runTracer [] [.read ⟨[1, 0, 2], none⟩, .write [9] ⟨1, none⟩, .read ⟨[1, 0, 3, 4], none⟩]).1
    none (2 + k)) = [[1, 0, 2], [1, 0, 3, 4]] :=
  C76_recorded_session [.read ⟨[1, 0, 2], none⟩, .write [9] ⟨1, none⟩, .read ⟨[1, 0, 3, 4], none⟩] (by simp) (by simp) k

/-- C76 fails: a session in which the device once delivered a single byte. Of its trace, what comes behind is never sent. -/
theorem C76_fails : ∃ ops : List TOp, (∀ res, .read res ∈ ops → res.data.length ≤ 1024) ∧
    (readsOf ops).map (·.data) = [[0x01, 0x00, 0x55], [0x00], [0x01, 0x00, 0x56]] ∧
    ∀ k, sendLoop (replayReads (runTracer [] ops).1 none (3 + k)) = [[0x01, 0x00, 0x55]] := by
  refine ⟨[.read ⟨[0x01, 0x00, 0x55], none⟩, .read ⟨[0x00], none⟩, .read ⟨[0x01, 0x00, 0x56], none⟩], by simp, rfl, fun k => ?_⟩
  exact C76_recorded_session [.read ⟨[0x01, 0x00, 0x55], none⟩, .read ⟨[0x00], none⟩, .read ⟨[0x01, 0x00, 0x56], none⟩]
    (by simp) (by simp) k

example : (∀ m ∈ [(⟨0, 0, [1, 0, 0x55]⟩ : Msg), ⟨1, 0, [2]⟩], Traceable m) ∧
    ∀ m ∈ [(⟨0, 0, [1, 0, 0x55]⟩ : Msg), ⟨1, 0, [2]⟩], m.dir = 0 → 3 ≤ m.data.length ∧ m.data.length ≤ 1024 := by
  constructor
  · intro m hm
    simp only [List.mem_cons, List.not_mem_nil, or_false] at hm
    rcases hm with rfl | rfl
    · exact ⟨.inl rfl, by decide, by decide⟩
    · exact ⟨.inr rfl, by decide, by decide⟩
  · intro m hm
    simp only [List.mem_cons, List.not_mem_nil, or_false] at hm
    rcases hm with rfl | rfl
    · intro _; decide
    · intro h; cases h

/-! ## C77 -/

/-- The data of one direction, operations that moved nothing left out. -/
def flow (d : Trace.Dir) (events : List (Trace.Dir × Bytes)) : List Bytes :=
  (events.filter (fun p => p.1 = d ∧ p.2 ≠ [])).map (·.2)

/-- The data of the messages of one direction. -/
def flowOf (d : Trace.Dir) (ms : List Msg) : List Bytes := (ms.filter (·.dir = d)).map (·.data)

theorem writeMsg_text (file : Bytes) (d : Trace.Dir) (hd : d = 0 ∨ d = 1) (data : Bytes) :
    (writeMsg file ⟨d, 0, data⟩).1 = file ++ traceText (if data = [] then [] else [⟨d, 0, data⟩]) := by
  by_cases h0 : data = []
  · rcases ((C38_written_text ⟨d, 0, data⟩).2.2 (.inr h0)) with ⟨e, he⟩
    rw [writeMsg, he, if_pos h0]
    simp [traceText]
  · have hs : signOf d = some (if d = 0 then 0x3C else 0x3E) := by
      rcases hd with rfl | rfl <;> rfl
    rw [writeMsg, ((C38_written_text ⟨d, 0, data⟩).1 _).2 ⟨_, hs, h0, rfl⟩, if_neg h0]
    simp [traceText, hs]

theorem traceText_append (a b : List Msg) : traceText (a ++ b) = traceText a ++ traceText b := by simp [traceText]

/-- What is done at the device and not yet in the file. -/
def pendingFlow (x : Option Bytes) : List Bytes := (x.toList).filter (· ≠ [])

theorem duplex_inv (s : Duplex) (schedule : List Bool) (ms : List Msg) (h0 : s.file = traceText ms)
    (h1 : flowOf 0 ms ++ pendingFlow s.readDone = flow 0 s.events)
    (h2 : flowOf 1 ms ++ pendingFlow s.writeDone = flow 1 s.events) (h3 : ∀ m ∈ ms, m.dir = 0 ∨ m.dir = 1) :
    ∃ ms, (s.run schedule).file = traceText ms ∧
      flowOf 0 ms ++ pendingFlow (s.run schedule).readDone = flow 0 (s.run schedule).events ∧
      flowOf 1 ms ++ pendingFlow (s.run schedule).writeDone = flow 1 (s.run schedule).events ∧
      ∀ m ∈ ms, m.dir = 0 ∨ m.dir = 1 := by
  induction schedule generalizing s ms with
  | nil => exact ⟨ms, h0, h1, h2, h3⟩
  | cons t schedule ih =>
    rw [Duplex.run, List.foldl_cons]
    change ∃ ms, ((s.step t).run schedule).file = _ ∧ _
    obtain ⟨reads, writes, rd, wd, events, file⟩ := s
    simp only at h0 h1 h2
    cases t with
    | false =>
      cases rd with
      | some d =>
        refine ih _ (ms ++ if d = [] then [] else [⟨0, 0, d⟩]) ?_ ?_ ?_ ?_
        · simp only [Duplex.step, writeMsg_text _ _ (.inl rfl), h0, traceText_append]
        · refine Eq.trans ?_ h1
          by_cases hd : d = [] <;> simp [Duplex.step, flowOf, pendingFlow, hd]
        · refine Eq.trans ?_ h2
          by_cases hd : d = [] <;> simp [Duplex.step, flowOf, hd]
        · intro m hm
          rcases List.mem_append.1 hm with hm | hm
          · exact h3 m hm
          · split at hm
            · cases hm
            · rw [List.mem_singleton] at hm; rw [hm]; exact .inl rfl
      | none =>
        cases reads with
        | nil => exact ih _ ms h0 h1 h2 h3
        | cons r rs =>
          obtain ⟨data, err⟩ := r
          cases err with
          | some e => exact ih _ ms h0 h1 h2 h3
          | none =>
            refine ih _ ms h0 ?_ ?_ h3
            · simp only [Duplex.step, flow, List.filter_append, List.map_append] at h1 ⊢
              rw [← h1]
              by_cases hd : data = [] <;> simp [pendingFlow, hd]
            · simp only [Duplex.step, flow, List.filter_append, List.map_append] at h2 ⊢
              rw [← h2]
              simp
              exact fun h => absurd h (by decide)
    | true =>
      cases wd with
      | some d =>
        refine ih _ (ms ++ if d = [] then [] else [⟨1, 0, d⟩]) ?_ ?_ ?_ ?_
        · simp only [Duplex.step, writeMsg_text _ _ (.inr rfl), h0, traceText_append]
        · refine Eq.trans ?_ h1
          by_cases hd : d = [] <;> simp [Duplex.step, flowOf, hd]
        · refine Eq.trans ?_ h2
          by_cases hd : d = [] <;> simp [Duplex.step, flowOf, pendingFlow, hd]
        · intro m hm
          rcases List.mem_append.1 hm with hm | hm
          · exact h3 m hm
          · split at hm
            · cases hm
            · rw [List.mem_singleton] at hm; rw [hm]; exact .inr rfl
      | none =>
        cases writes with
        | nil => exact ih _ ms h0 h1 h2 h3
        | cons r rs =>
          obtain ⟨p, n, err⟩ := r
          cases err with
          | some e => exact ih _ ms h0 h1 h2 h3
          | none =>
            refine ih _ ms h0 ?_ ?_ h3
            · simp only [Duplex.step, flow, List.filter_append, List.map_append] at h1 ⊢
              rw [← h1]
              simp
              exact fun h => absurd h (by decide)
            · simp only [Duplex.step, flow, List.filter_append, List.map_append] at h2 ⊢
              rw [← h2]
              by_cases hd : p.take n = [] <;> simp [pendingFlow, hd]

/-- C77 (each direction by itself). However the two goroutines take turns: once neither is between an operation and its
recording, the trace file consists of whole lines, and the messages of either direction are what the device took or gave in that
direction, complete and in order. Missing: the order between the directions, see `C77_fails`. -/
theorem C77_directions_partial (reads : List ReadRes) (writes : List (Bytes × WriteRes)) (schedule : List Bool) :
    let s := (Duplex.start reads writes).run schedule
    s.readDone = none → s.writeDone = none →
    ∃ ms, s.file = traceText ms ∧ (∀ m ∈ ms, m.dir = 0 ∨ m.dir = 1) ∧ flowOf 0 ms = flow 0 s.events ∧ flowOf 1 ms = flow 1 s.events := by
  intro s h1 h2
  obtain ⟨ms, g1, g2, g3, g4⟩ := duplex_inv (Duplex.start reads writes) schedule [] rfl rfl rfl (by simp)
  refine ⟨ms, g1, g4, ?_, ?_⟩
  · have : (Duplex.run (Duplex.start reads writes) schedule).readDone = none := h1
    rw [← g2, this]; simp [pendingFlow]
  · have : (Duplex.run (Duplex.start reads writes) schedule).writeDone = none := h2
    rw [← g3, this]; simp [pendingFlow]

/-- C77 fails as to the order between the directions: a report is sent, the device answers, and the answer is recorded first. -/
theorem C77_fails : ∃ reads writes schedule,
    let s := (Duplex.start reads writes).run schedule
    s.readDone = none ∧ s.writeDone = none ∧ s.events = [(1, [1, 0, 0x55]), (0, [2, 0, 0x56])] ∧
      s.file = traceText [⟨0, 0, [2, 0, 0x56]⟩, ⟨1, 0, [1, 0, 0x55]⟩] :=
  ⟨[⟨[2, 0, 0x56], none⟩], [([1, 0, 0x55], ⟨3, none⟩)], [true, false, false, true], by decide +kernel⟩

/-- What happened at the device is what it answered: the reads and writes that succeeded, each once they all have been made. -/
theorem C77_events (reads : List ReadRes) (writes : List (Bytes × WriteRes)) (schedule : List Bool) :
    let s := (Duplex.start reads writes).run schedule
    s.reads = [] → s.writes = [] →
    flow 0 s.events = ((reads.filter (fun x => decide (Recorded x))).map (·.data)) ∧
    flow 1 s.events = ((writes.filter (fun x => x.2.err = none)).map (fun x => x.1.take x.2.n)).filter (· ≠ []) := by
  have inv : ∀ (schedule : List Bool) (s : Duplex),
      flow 0 (s.run schedule).events ++ ((s.run schedule).reads.filter (fun x => decide (Recorded x))).map (·.data) =
        flow 0 s.events ++ (s.reads.filter (fun x => decide (Recorded x))).map (·.data) ∧
      flow 1 (s.run schedule).events ++ (((s.run schedule).writes.filter (fun x => x.2.err = none)).map (fun x => x.1.take x.2.n)).filter (· ≠ []) =
        flow 1 s.events ++ ((s.writes.filter (fun x => x.2.err = none)).map (fun x => x.1.take x.2.n)).filter (· ≠ []) := by
    intro schedule
    induction schedule with
    | nil => intro s; exact ⟨rfl, rfl⟩
    | cons t schedule ih =>
      intro s
      rw [Duplex.run, List.foldl_cons]
      obtain ⟨i1, i2⟩ := ih (s.step t)
      rw [Duplex.run] at i1 i2
      rw [i1, i2]
      obtain ⟨reads, writes, rd, wd, events, file⟩ := s
      cases t with
      | false =>
        cases rd with
        | some d => exact ⟨rfl, rfl⟩
        | none =>
          cases reads with
          | nil => exact ⟨rfl, rfl⟩
          | cons r rs =>
            obtain ⟨data, err⟩ := r
            cases err with
            | some e => refine ⟨?_, rfl⟩; simp [Duplex.step, Recorded]
            | none =>
              constructor
              · by_cases hd : data = []
                · have : ¬ Recorded ⟨data, none⟩ := fun h => h.2 hd
                  simp [Duplex.step, flow, hd, Recorded]
                · have : Recorded ⟨data, none⟩ := ⟨rfl, hd⟩
                  simp [Duplex.step, flow, hd, this]
              · simp [Duplex.step, flow]
                exact fun h => absurd h (by decide)
      | true =>
        cases wd with
        | some d => exact ⟨rfl, rfl⟩
        | none =>
          cases writes with
          | nil => exact ⟨rfl, rfl⟩
          | cons r rs =>
            obtain ⟨p, n, err⟩ := r
            cases err with
            | some e => refine ⟨rfl, ?_⟩; simp [Duplex.step]
            | none =>
              constructor
              · simp [Duplex.step, flow]
                exact fun h => absurd h (by decide)
              · by_cases hd : p.take n = [] <;> simp [Duplex.step, flow, hd]
  intro s h1 h2
  obtain ⟨i1, i2⟩ := inv schedule (Duplex.start reads writes)
  have h1 : ((Duplex.start reads writes).run schedule).reads = [] := h1
  have h2 : ((Duplex.start reads writes).run schedule).writes = [] := h2
  rw [h1] at i1
  rw [h2] at i2
  simp only [List.filter_nil, List.map_nil, List.append_nil] at i1 i2
  exact ⟨i1, i2⟩

example : let s := (Duplex.start [⟨[2, 0, 0x56], none⟩, ⟨[], some .eof⟩] [([1, 0, 0x55], ⟨3, none⟩)]).run [true, false, false, true, false]
    s.reads = [] ∧ s.writes = [] ∧ s.readDone = none ∧ s.writeDone = none := by decide

end Props
