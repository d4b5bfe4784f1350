import Verif.Lemmas.Shown
import Verif.Props.CliMore

/-!
# C114: `ipod view` as a function of the text of the trace file
-/

namespace Props
open Go Spec Ipod Ipod.Hid Ipod.Trace Ipod.Cli

/-- The messages of the file, if all of it can be read. -/
def wholeFile (content : Bytes) (ending : Option Err) : Option (List (Bool × Bytes)) :=
  if none ∈ fileMessages content ∨ fileEnd content ending ≠ .eof then none else some ((fileMessages content).filterMap id)

theorem load_whole (content : Bytes) (ending : Option Err) :
    match wholeFile content ending with
    | none => ∃ e, loadTrace (newReader content ending) = .error e
    | some ms => ∃ l, loadTrace (newReader content ending) = .ok l ∧ l.map bare = ms ∧ (∀ m ∈ l, m.dir = 0 ∨ m.dir = 1) := by
  obtain ⟨rs, h1, h2⟩ := file_told content
  have hl := load_told ending (fileLines_lines content) 0 h1
  have hl : loadTrace (newReader content ending) = _ := hl
  rw [← fileEnd_final] at hl
  unfold toldOf at h2
  have hnone : none ∈ rs ↔ none ∈ fileMessages content := by
    have e1 : none ∈ rs ↔ none ∈ rs.map (Option.map fun m : Msg => (m.dir, m.data)) := by
      simp only [List.mem_map, Option.map_eq_none_iff]
      exact ⟨fun h => ⟨none, h, rfl⟩, by rintro ⟨x, h, rfl⟩; exact h⟩
    have e2 : none ∈ fileMessages content ↔ none ∈ (fileMessages content).map (Option.map fun x : Bool × Bytes => (dirOf x.1, x.2)) := by
      simp only [List.mem_map, Option.map_eq_none_iff]
      exact ⟨fun h => ⟨none, h, rfl⟩, by rintro ⟨x, h, rfl⟩; exact h⟩
    rw [e1, e2, h2]
  unfold wholeFile
  by_cases hn : none ∈ fileMessages content
  · rw [if_pos (.inl hn)]
    rw [if_pos (hnone.2 hn)] at hl
    exact ⟨_, hl⟩
  · rw [if_neg fun h => hn (hnone.1 h)] at hl
    by_cases he : fileEnd content ending = .eof
    · rw [if_neg (by rintro (h | h) <;> contradiction)]
      rw [if_pos he] at hl
      have hconv : ∀ (rs : List (Option Msg)) (fs : List (Option (Bool × Bytes))),
          rs.map (Option.map fun m => (m.dir, m.data)) = fs.map (Option.map fun x => (dirOf x.1, x.2)) →
          (rs.filterMap id).map bare = fs.filterMap id ∧ ∀ m ∈ rs.filterMap id, m.dir = 0 ∨ m.dir = 1 := by
        intro rs
        induction rs with
        | nil => intro fs h; cases fs with
          | nil => exact ⟨rfl, by simp⟩
          | cons _ _ => cases h
        | cons r rs ih =>
          intro fs h
          cases fs with
          | nil => cases h
          | cons f fs =>
            simp only [List.map_cons, List.cons.injEq] at h
            obtain ⟨h1, h2⟩ := ih fs h.2
            match r, f, h.1 with
            | none, none, _ => exact ⟨h1, h2⟩
            | some m, some (b, d), h3 =>
              simp only [Option.map_some, Option.some.injEq, Prod.mk.injEq] at h3
              have hd : m.dir = 0 ∨ m.dir = 1 := by cases b <;> simp [h3.1, dirOf]
              refine ⟨?_, ?_⟩
              · simp only [List.filterMap_cons, id, List.map_cons, List.cons.injEq]
                refine ⟨?_, h1⟩
                cases b <;> simp [bare, h3, dirOf]
              · intro x hx
                simp only [List.filterMap_cons, id, List.mem_cons] at hx
                rcases hx with rfl | hx
                · exact hd
                · exact h2 x hx
      obtain ⟨h3, h4⟩ := hconv rs _ h2
      exact ⟨_, hl, h3, h4⟩
    · rw [if_pos (.inr he)]
      rw [if_neg he] at hl
      exact ⟨_, hl⟩

/-- C114. What `ipod view` shows is determined by the text of the file. A file not all of which can be read is refused. Otherwise every
frame is shown that the specification names, with every command in it, and the command ends with status 0, if all packets can be
decoded one after another; if not it crashes (status 2), and so it may at a frame that announces more than it has. -/
theorem C114_view {σ : Type} (D : Device σ) (s : Srv σ) (os : OS) (legacy : Bool) (env : Env) {p : Path} (args : List Bytes)
    (hp : p ≠ []) (hi : os.refused .input p = none) {content : Bytes} {ending : Option Err} (hn : os.node p = some (.file content ending))
    (hst : (fileMessages content).length < env.steps) :
    let x := run D s os legacy env (.view (p :: args))
    x.files = os.node ∧
    match wholeFile content ending with
    | none => x.status = .exit 1
    | some ms =>
      (survived false (shows legacy ms) = true ∧ x.status = .exit 0 ∧
        (x.shown.map fun e => (e.dir, e.frame)) = ((shows legacy ms).map fun e => (dirOf e.1, e.2)) ∧ SeenIn false x.shown) ∨
      (survived false (shows legacy ms) = false ∧ x.status = .exit 2) ∨
      (x.status = .exit 2 ∧ ∃ f ∈ framesShown (shows legacy ms), exceeds f = true) := by
  intro x
  have e := (C88_opens D s os legacy env _ (.view (args := p :: args) (p := p) ⟨rfl, hp⟩ ⟨hi, by rw [hn]; simp⟩)).2.2
  have e0 : x.files = _ := congrArg Outcome.files e
  have e1 : x.status = _ := congrArg Outcome.status e
  have e2 : x.shown = _ := congrArg Outcome.shown e
  have hlp : loop D s os legacy env (.view (p :: args)) =
      viewOutcome (dumpTrace env.grow (table legacy) env.steps (newReader content ending)) os.node := by
    rw [loop, show arg (p :: args) 0 = p from rfl, inputReader, hn]
  rw [hlp] at e0 e1 e2
  refine ⟨?_, ?_⟩
  · rw [e0]
    unfold viewOutcome
    split <;> rfl
  have hw := load_whole content ending
  match hwf : wholeFile content ending with
  | none =>
    rw [hwf] at hw
    obtain ⟨er, hw⟩ := hw
    have hd : dumpTrace env.grow (table legacy) env.steps (newReader content ending) = .error er := by rw [dumpTrace, hw]
    rw [hd] at e1
    exact e1
  | some ms =>
    rw [hwf] at hw
    obtain ⟨l, hw, h1, h2⟩ := hw
    subst h1
    have hlen : l.length < env.steps := by
      have h3 : (l.map bare).length ≤ (fileMessages content).length := by
        unfold wholeFile at hwf
        split at hwf
        · cases hwf
        · rw [← Option.some.inj hwf]; exact List.length_filterMap_le ..
      rw [List.length_map] at h3
      omega
    obtain ⟨mem, q, l', hl', hq, hd⟩ := dumpTrace_loop hw env.grow (table legacy) env.steps
    have hv := shows_viewing legacy _ l (Nat.le_refl _) h2
    subst hl'
    have hlen' : l'.length < env.steps := by rw [List.length_map] at hlen; exact hlen
    simp only
    rcases dumpLoop_fate legacy (grow := env.grow) env.steps hq hlen' false hv with ⟨hs, shown, h3⟩ | ⟨hs, h3⟩ | ⟨h3, h4⟩
    · left
      rw [h3] at hd
      rw [hd] at e1 e2
      refine ⟨hs, e1, ?_⟩
      rcases C58_view_partial hw env.grow (table legacy) env.steps (by simpa using hlen') with h5 | ⟨evs, h5, h6, h7⟩
      · rw [hd] at h5; cases h5
      · rw [hd] at h5
        cases h5
        rw [e2]
        exact ⟨C58_viewing_unique h6 hv, cmds_seen h7⟩
    · right; left
      rw [h3] at hd
      rw [hd] at e1
      exact ⟨hs, e1⟩
    · right; right
      rw [h3] at hd
      rw [hd] at e1
      exact ⟨e1, h4⟩

/-- C114. Without such a frame it is determined altogether, whatever the memory management does. -/
theorem C114_exact {σ : Type} (D : Device σ) (s : Srv σ) (os : OS) (legacy : Bool) (env : Env) {p : Path} (args : List Bytes)
    (hp : p ≠ []) (hi : os.refused .input p = none) {content : Bytes} {ending : Option Err} (hn : os.node p = some (.file content ending))
    (hst : (fileMessages content).length < env.steps) {ms : List (Bool × Bytes)} (hw : wholeFile content ending = some ms)
    (hx : ∀ f ∈ framesShown (shows legacy ms), exceeds f = false) :
    (run D s os legacy env (.view (p :: args))).status = if survived false (shows legacy ms) then .exit 0 else .exit 2 := by
  have h := (C114_view D s os legacy env args hp hi hn hst).2
  rw [hw] at h
  rcases h with ⟨h1, h2, _⟩ | ⟨h1, h2⟩ | ⟨_, f, h3, h4⟩
  · rw [h1, h2]; rfl
  · rw [h1, h2]; rfl
  · rw [hx f h3] at h4; cases h4

/-- All frames the messages of one direction make up, one after another. -/
def framesIn (legacy : Bool) : List Bytes → List (Except Err Bytes)
  | [] => []
  | b :: bs =>
    match firstFrame legacy [] (b :: bs) with
    | none => []
    | some (n, f) => f :: framesIn legacy (bs.drop (n - 1))
termination_by bs => bs.length
decreasing_by simp; omega

theorem without_same (d : Bool) (n : Nat) (ms : List (Bool × Bytes)) :
    ((without d n ms).filter (·.1 = d)).map (·.2) = ((ms.filter (·.1 = d)).map (·.2)).drop n := by
  fun_induction without d n ms with
  | case1 => rfl
  | case2 => rfl
  | case3 n m ms h ih => rw [List.filter_cons_of_pos (by simpa using h), List.map_cons, List.drop_succ_cons, ih]
  | case4 n m ms h ih => rw [List.filter_cons_of_neg (by simpa using h), List.filter_cons_of_neg (by simpa using h), ih]

theorem without_other (d : Bool) (n : Nat) (ms : List (Bool × Bytes)) {d' : Bool} (hd : d' ≠ d) :
    (without d n ms).filter (·.1 = d') = ms.filter (·.1 = d') := by
  fun_induction without d n ms with
  | case1 => rfl
  | case2 => rfl
  | case3 n m ms h ih => rw [List.filter_cons_of_neg (by simpa [h] using hd.symm), ih]
  | case4 n m ms h ih => rw [List.filter_cons, List.filter_cons, ih]

/-- C114. The frames shown of a direction are those its messages make up, one after another, from the first one on: neither what was
recorded of the other direction nor where it was recorded makes a difference, except that the last ones may be missing. -/
theorem C114_in_order (legacy : Bool) (d : Bool) (ms : List (Bool × Bytes)) :
    ((shows legacy ms).filter (·.1 = d)).map (·.2) <+: framesIn legacy ((ms.filter (·.1 = d)).map (·.2)) := by
  fun_induction shows legacy ms with
  | case1 => exact List.nil_prefix
  | case2 => exact List.nil_prefix
  | case3 m ms n f hf ih =>
    by_cases hd : m.1 = d
    · subst hd
      rw [List.filter_cons_of_pos (by simp), List.filter_cons_of_pos (by simp)]
      rw [List.filter_cons_of_pos (by simp), List.map_cons] at hf
      rw [List.map_cons, List.map_cons, framesIn, hf]
      simp only
      rw [without_same] at ih
      exact List.cons_prefix_cons.2 ⟨rfl, ih⟩
    · rw [List.filter_cons_of_neg (by simpa using hd), List.filter_cons_of_neg (by simpa using hd)]
      rw [without_other _ _ _ fun h => hd h.symm] at ih
      exact ih

theorem first_last (legacy : Bool) {b : Bytes} (hb : firstFrame legacy [] [b] ≠ none) (bs : List Bytes) : ∀ part : Bytes,
    firstFrame legacy part (bs ++ [b]) ≠ none := by
  induction bs with
  | nil =>
    intro part
    rw [List.nil_append]
    unfold firstFrame at hb ⊢
    split at hb
    · rename_i link d hs
      by_cases h0 : link = 0x00
      · rw [if_pos h0]; simp
      · rw [if_neg h0] at hb ⊢
        by_cases h1 : link = 0x01
        · rw [if_pos h1]; simp
        · rw [if_neg h1] at hb
          exact absurd rfl hb
    · simp
  | cons a bs ih =>
    intro part
    rw [List.cons_append]
    unfold firstFrame
    split
    · split
      · simp
      · split
        · simp
        · intro h
          rw [Option.map_eq_none_iff] at h
          exact ih _ h
    · simp

theorem first_some (legacy : Bool) {bs : List Bytes} (h : ∀ b, bs.getLast? = some b → firstFrame legacy [] [b] ≠ none) (hne : bs ≠ []) :
    firstFrame legacy [] bs ≠ none := by
  obtain ⟨pre, b, rfl⟩ : ∃ pre b, bs = pre ++ [b] := ⟨_, _, (List.dropLast_concat_getLast hne).symm⟩
  exact first_last legacy (h b (by simp)) pre []

/-- C114. Nothing is missing if in either direction the last message recorded ends a frame. -/
theorem C114_all (legacy : Bool) (ms : List (Bool × Bytes))
    (h : ∀ (d : Bool) (b : Bytes), ((ms.filter (·.1 = d)).map (·.2)).getLast? = some b → firstFrame legacy [] [b] ≠ none) (d : Bool) :
    ((shows legacy ms).filter (·.1 = d)).map (·.2) = framesIn legacy ((ms.filter (·.1 = d)).map (·.2)) := by
  fun_induction shows legacy ms with
  | case1 => rw [List.filter_nil, List.filter_nil, List.map_nil, List.map_nil, framesIn]
  | case2 m ms hf =>
    exact absurd hf (first_some legacy (h m.1) (by rw [List.filter_cons_of_pos (by simp)]; simp))
  | case3 m ms n f hf ih =>
    have ih := ih (by
      intro d' b hb
      apply h d' b
      by_cases hd : d' = m.1
      · subst hd
        rw [without_same] at hb
        rw [List.filter_cons_of_pos (by simp), List.map_cons, List.getLast?_cons]
        generalize (ms.filter (·.1 = m.1)).map (·.2) = l at hb
        obtain ⟨hk, hb⟩ : n - 1 < l.length ∧ l.getLast? = some b := by
          rw [List.getLast?_drop] at hb
          split at hb
          · cases hb
          · exact ⟨by omega, hb⟩
        rw [hb]; rfl
      · rw [without_other _ _ _ hd] at hb
        rw [List.filter_cons_of_neg (by simpa using fun h => hd h.symm)]
        exact hb)
    by_cases hd : m.1 = d
    · subst hd
      rw [List.filter_cons_of_pos (by simp), List.filter_cons_of_pos (by simp)]
      rw [List.filter_cons_of_pos (by simp), List.map_cons] at hf
      rw [List.map_cons, List.map_cons, framesIn, hf]
      simp only
      rw [without_same] at ih
      rw [ih]
    · rw [List.filter_cons_of_neg (by simpa using hd), List.filter_cons_of_neg (by simpa using hd)]
      rw [without_other _ _ _ fun h => hd h.symm] at ih
      exact ih

/-! ### examples -/

/-- A recording in both directions, with the reports of a frame interleaved. -/
def viewText : Bytes := ascii "< 05 02 55 02\n> 03 00 55 02 00 08 F6\n< 05 01 00 07 F7\n< 99 00 00\n< 05 02 55\n> 01 00 00\n"

theorem viewText_whole : wholeFile viewText none = some
    [(false, [0x05, 0x02, 0x55, 0x02]), (true, [0x03, 0x00, 0x55, 0x02, 0x00, 0x08, 0xF6]), (false, [0x05, 0x01, 0x00, 0x07, 0xF7]),
     (false, [0x99, 0x00, 0x00]), (false, [0x05, 0x02, 0x55]), (true, [0x01, 0x00, 0x00])] := by decide +kernel

-- two frames, an unknown report; the frame that is not complete hides the one after it
example : shows false [(false, [0x05, 0x02, 0x55, 0x02]), (true, [0x03, 0x00, 0x55, 0x02, 0x00, 0x08, 0xF6]),
    (false, [0x05, 0x01, 0x00, 0x07, 0xF7]), (false, [0x99, 0x00, 0x00]), (false, [0x05, 0x02, 0x55]), (true, [0x01, 0x00, 0x00])] =
    [(false, .ok [0x55, 0x02, 0x00, 0x07, 0xF7]), (true, .ok [0x55, 0x02, 0x00, 0x08, 0xF6]), (false, .error Err.noReport)] := by
  decide +kernel
example : survived false [(false, .ok [0x55, 0x02, 0x00, 0x07, 0xF7]), (true, .ok [0x55, 0x02, 0x00, 0x08, 0xF6]),
    (false, .error Err.noReport)] = true := by decide +kernel
-- a packet that cannot be decoded
example : survived false [(false, .ok [0x55, 0x02, 0x00, 0x64, 0x9A])] = false := by decide +kernel
-- the hypothesis of `C114_all`: the last messages end frames
example : ∀ (d : Bool) (b : Bytes), (([(false, [0x05, 0x02, 0x55, 0x02]), (true, [0x03, 0x00, 0x55]), (false, [0x05, 0x01, 0x00])].filter
    (·.1 = d)).map (·.2)).getLast? = some b → firstFrame false [] [b] ≠ none := by
  intro d b hb
  cases d
  · cases show some [0x05, 0x01, 0x00] = some b from hb; decide +kernel
  · cases show some [0x03, 0x00, 0x55] = some b from hb; decide +kernel
-- a line that is nonsense
example : wholeFile (ascii "< 05 02 55 02\n# recorded yesterday\n") none = none := by decide +kernel

end Props
