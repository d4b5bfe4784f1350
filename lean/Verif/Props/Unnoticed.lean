import Verif.Lemmas.Unnoticed

/-! Replaying sessions whose reads fail where nobody notices (C44, continued). -/

namespace Props
open Go Spec Ipod Ipod.Hid Ipod.Trace

theorem serve_seen {σ : Type} (D : Device σ) (clock : Clock) (grow : Growth) {defs : List ReportDef} (hd : ∀ d ∈ defs, 1 ≤ d.len)
    (reads : List ReadRes) (s : Srv σ) :
    serve D clock grow defs reads s = (seen (observed D clock grow defs reads s) >>= fun x => .ret (x.1, x.2.1)) := by
  rw [← C74_online D clock grow defs hd]
  cases observed D clock grow defs reads s with
  | panic => rfl
  | ret x => rfl

/-- Ends of the file make no difference. -/
theorem serve_ends {σ : Type} (D : Device σ) (clock : Clock) (grow : Growth) {defs : List ReportDef} (hd : ∀ d ∈ defs, 1 ≤ d.len)
    (reads : List ReadRes) (k : Nat) (s : Srv σ) :
    serve D clock grow defs (reads ++ List.replicate k ⟨[], some .eof⟩) s = serve D clock grow defs reads s := by
  rw [← C74_online D clock grow defs hd, ← C74_online D clock grow defs hd, observed, observed, run_append]
  cases Live.run D clock grow defs reads (Live.start s) with
  | panic => rfl
  | ret x =>
    obtain ⟨l, b⟩ := x
    cases b with
    | false => rfl
    | true => cases k <;> rfl

theorem readsOf_mem {ops : List TOp} {x : ReadRes} (hx : x ∈ readsOf ops) : .read x ∈ ops := by
  obtain ⟨op, hop, ho⟩ := List.mem_filterMap.1 hx
  split at ho
  · cases ho; exact hop
  · cases ho

/-- C44, in general: the replay of a trace does what a server does to which only those reads of the session happen that succeeded
and gave something. -/
theorem C44_replays_recorded {σ : Type} (D : Device σ) (clock : Clock) (grow : Growth) {defs : List ReportDef}
    (hd : ∀ d ∈ defs, 1 ≤ d.len) (ops : List TOp) (hr : ∀ res, .read res ∈ ops → res.data.length ≤ 1024)
    (hw : ∀ p res, .write p res ∈ ops → p.length ≤ 21844) (k : Nat) (s : Srv σ) :
    let recorded := (readsOf ops).filter (fun x => decide (Recorded x))
    serve D clock grow defs (dirReads dirIn 1024 (recorded.length + k) (newReader (runTracer [] ops).1 none)) s =
      serve D clock grow defs recorded s := by
  intro recorded
  rw [C44_replayed_reads ops hr hw k, serve_ends D clock grow hd]

/-- C44 (sessions whose failing and empty reads go unnoticed: between two frames, or in a frame of which nothing more follows).
Replaying the trace of a live session gives the same responses and ends in the same state; also if the server panics. Missing: a
read that fails or gives nothing amid a frame that is then continued, see `C44_fails`. -/
theorem C44_replay_unnoticed_partial {σ : Type} (D : Device σ) (clock : Clock) (grow : Growth) {defs : List ReportDef}
    (hd : ∀ d ∈ defs, 1 ≤ d.len) (ops : List TOp)
    (hr : ∀ res, .read res ∈ ops → res.data.length ≤ 1024 ∧ res.err ≠ some .eof)
    (hw : ∀ p res, .write p res ∈ ops → p.length ≤ 21844) (hf : FailsUnnoticed defs (readsOf ops)) (k : Nat) (s : Srv σ) :
    let n := ((readsOf ops).filter (fun x => decide (Recorded x))).length + k
    serve D clock grow defs (dirReads dirIn 1024 n (newReader (runTracer [] ops).1 none)) s =
      serve D clock grow defs (readsOf ops) s := by
  intro n
  rw [C44_replays_recorded D clock grow hd ops (fun r h => (hr r h).1) hw k, serve_seen D clock grow hd, serve_seen D clock grow hd,
    observed, observed, run_unnoticed D clock grow (readsOf ops) (fun x hx => hr x (readsOf_mem hx)) hf (alike_start defs _ s)]

/-- C44: reads that fail between frames only go unnoticed. -/
theorem C44_between_unnoticed {defs : List ReportDef} {reads : List ReadRes} (h : FailsBetweenFrames defs reads) :
    FailsUnnoticed defs reads :=
  fun pre x y rest hr hy => .inl (h pre x y rest hr hy)

/-- A session: the first half of a request, a failing read, an empty one, a request. -/
def sampleUnnoticed : List TOp :=
  [.read ⟨[0x01, 0x02, 0x55, 0x02, 0x00], none⟩, .read ⟨[], some .noProgress⟩, .read ⟨[], none⟩,
   .read ⟨[0x01, 0x00, 0x55, 0x02, 0x00, 0x11, 0xED], none⟩, .write [0x0D, 0x00, 0x55, 0x04, 0x00, 0x12, 0xFF, 0xFF, 0xEC] ⟨9, none⟩]

theorem sample_unnoticed : FailsUnnoticed defaultReportDefs (readsOf sampleUnnoticed) ∧
    ¬ FailsBetweenFrames defaultReportDefs (readsOf sampleUnnoticed) := by
  have fresh : Fresh defaultReportDefs [⟨[0x01, 0x00, 0x55, 0x02, 0x00, 0x11, 0xED], none⟩] :=
    .starts (accepted_iff.2 ⟨_, rfl, by decide, rfl⟩) (.inl rfl)
  have hempty : ¬ Recorded ⟨[], none⟩ := by decide
  constructor
  · intro pre x y rest h hy
    simp only [readsOf, sampleUnnoticed, List.filterMap_cons, List.filterMap_nil] at h
    match pre, h with
    | [], h => cases h; exact .inr (.fails hempty fresh)
    | [_], h => cases h; exact .inr fresh
    | [_, _], h => cases h; exact absurd ⟨rfl, by decide⟩ hy
    | [_, _, _], h => cases h
    | _ :: _ :: _ :: _ :: pre, h =>
      simp only [List.cons_append, List.cons.injEq, List.nil_eq, List.append_eq_nil_iff, reduceCtorEq, and_false] at h
  · intro h
    have := h [] _ _ _ rfl (by decide) 0x01 0x02 0x55 [0x02, 0x00] rfl ⟨_, accepted_iff.2 ⟨_, rfl, by decide, rfl⟩⟩
    revert this
    decide

/-- `C44_replays_recorded` and `C44_replay_unnoticed_partial` on that session. -/
example (k : Nat) (s : Srv DevGeneral) :
    let recorded := (readsOf sampleUnnoticed).filter (fun x => decide (Recorded x))
    serve devGeneral (fun _ => ⟨2024, 1, 2, 3, 4⟩) (fun _ n => n) defaultReportDefs
        (dirReads dirIn 1024 (recorded.length + k) (newReader (runTracer [] sampleUnnoticed).1 none)) s =
      serve devGeneral (fun _ => ⟨2024, 1, 2, 3, 4⟩) (fun _ n => n) defaultReportDefs recorded s ∧
    serve devGeneral (fun _ => ⟨2024, 1, 2, 3, 4⟩) (fun _ n => n) defaultReportDefs
        (dirReads dirIn 1024 (recorded.length + k) (newReader (runTracer [] sampleUnnoticed).1 none)) s =
      serve devGeneral (fun _ => ⟨2024, 1, 2, 3, 4⟩) (fun _ n => n) defaultReportDefs (readsOf sampleUnnoticed) s :=
  ⟨C44_replays_recorded _ _ _ (by decide) _ (by simp [sampleUnnoticed]) (by simp [sampleUnnoticed]) k s,
    C44_replay_unnoticed_partial _ _ _ (by decide) _ (by simp [sampleUnnoticed]) (by simp [sampleUnnoticed]) sample_unnoticed.1 k s⟩

/-- The hypotheses of `C44_replay_unnoticed_partial`, in a session to which `C44_replay_same_partial` does not apply. -/
example : (∀ d ∈ defaultReportDefs, 1 ≤ d.len) ∧
    (∀ res, .read res ∈ sampleUnnoticed → res.data.length ≤ 1024 ∧ res.err ≠ some .eof) ∧
    (∀ p res, .write p res ∈ sampleUnnoticed → p.length ≤ 21844) ∧ FailsUnnoticed defaultReportDefs (readsOf sampleUnnoticed) ∧
    ¬ FailsBetweenFrames defaultReportDefs (readsOf sampleUnnoticed) :=
  ⟨by decide, by simp [sampleUnnoticed], by simp [sampleUnnoticed], sample_unnoticed.1, sample_unnoticed.2⟩

end Props
