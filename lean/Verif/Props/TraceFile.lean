import Verif.Spec.TraceFile
import Verif.Props.Online
import Verif.Props.View

/-! Properties of reading any file as a trace (C89). -/

namespace Props
open Go Spec Ipod Ipod.Hid Ipod.Trace

/-- Every file has lines, and only one way to see them. -/
theorem C89_lines (content : Bytes) : ∃ ls, Lines content ls ∧ ∀ ls', Lines content ls' → ls' = ls := by
  have hex : ∃ ls, Lines content ls := by
    induction content with
    | nil => exact ⟨[], .none⟩
    | cons c cs ih =>
      obtain ⟨ls, h⟩ := ih
      by_cases hc : c = 0x0A
      · subst hc
        exact ⟨_, .line (l := []) (by simp) h⟩
      · have hc' : ¬ (0x0A : UInt8) = c := fun h => hc h.symm
        cases h with
        | none => exact ⟨_, .last (l := [c]) (by simp) (by simpa using hc')⟩
        | last h1 h2 => exact ⟨_, .last (l := c :: _) (by simp) (by simp [hc', h2])⟩
        | line h1 h2 => exact ⟨_, .line (l := c :: _) (by simp [hc', h1]) h2⟩
  obtain ⟨ls, h⟩ := hex
  refine ⟨ls, h, ?_⟩
  have cut : ∀ (l l' rest rest' : Bytes), (0x0A : UInt8) ∉ l → (0x0A : UInt8) ∉ l' → l ++ 0x0A :: rest = l' ++ 0x0A :: rest' →
      l = l' ∧ rest = rest' := by
    intro l
    induction l with
    | nil =>
      intro l' rest rest' _ h' e
      cases l' with
      | nil => exact ⟨rfl, by simpa using e⟩
      | cons c l' => simp at e; exact absurd e.1 (by intro h0; exact h' (by simp [h0]))
    | cons c l ih =>
      intro l' rest rest' h h' e
      cases l' with
      | nil => simp at e; exact absurd e.1 (by intro h0; exact h (by simp [h0]))
      | cons c' l' =>
        simp only [List.cons_append, List.cons.injEq] at e
        simp only [List.mem_cons, not_or] at h h'
        obtain ⟨rfl, e2⟩ := ih l' rest rest' h.2 h'.2 e.2
        exact ⟨by rw [e.1], e2⟩
  induction h with
  | none =>
    intro ls' h'
    generalize hc : ([] : Bytes) = content at h'
    cases h' with
    | none => rfl
    | last h1 => exact absurd hc.symm h1
    | line => simp at hc
  | @last l h1 h2 =>
    intro ls' h'
    cases h' with
    | none => exact absurd rfl h1
    | last => rfl
    | line => simp at h2
  | @line l rest ls h1 h2 ih =>
    intro ls' h'
    generalize hc : l ++ 0x0A :: rest = content at h'
    cases h' with
    | none => simp at hc
    | last _ h3 => rw [← hc] at h3; simp at h3
    | line h3 h4 =>
      obtain ⟨rfl, rfl⟩ := cut _ _ _ _ h1 h3 hc
      rw [ih _ h4]

theorem textOf_dropCR (l : Bytes) : TextOf l (dropCR l) := by
  unfold TextOf dropCR
  by_cases h : l.getLast? = some 0x0D
  · rw [if_pos h]
    left
    obtain ⟨ys, rfl⟩ := List.getLast?_eq_some_iff.1 h
    simp
  · rw [if_neg h]
    right
    refine ⟨rfl, ?_⟩
    rintro t' rfl
    simp at h

theorem textOf_unique {l t t' : Bytes} (h : TextOf l t) (h' : TextOf l t') : t = t' := by
  rcases h with h | ⟨h, h1⟩
  · rcases h' with h' | ⟨_, h2⟩
    · rw [h] at h'
      exact (List.append_inj' h' rfl).1
    · exact absurd h (h2 t)
  · rcases h' with h' | ⟨h', _⟩
    · exact absurd h' (h1 t')
    · rw [← h, ← h']

theorem looseLine_unique {t : Bytes} {d d' : Trace.Dir} {data data' : Bytes} (h : LooseLine t d data) (h' : LooseLine t d' data') :
    d = d' ∧ data = data' := by
  have h1 := (msgUnmarshal_iff Msg.zero ⟨d, 0, data⟩ t).2 ⟨h, rfl⟩
  have h2 := (msgUnmarshal_iff Msg.zero ⟨d', 0, data'⟩ t).2 ⟨h', rfl⟩
  rw [h1] at h2
  simp only [Prod.mk.injEq, Msg.mk.injEq, and_true, true_and] at h2
  exact h2

theorem not_loose_nil (d : Trace.Dir) (data : Bytes) : ¬ LooseLine [] d data := by
  rintro ⟨_, _, _, _, _, _, h, _⟩
  cases h

/-- What the lines tell is determined. -/
theorem C89_told_unique {i : Nat} {ls : List Bytes} {rs rs' : List (Option Msg)} (h : Told i ls rs) (h' : Told i ls rs') : rs = rs' := by
  induction h generalizing rs' with
  | nil => cases h'; rfl
  | empty h1 _ ih =>
    cases h' with
    | empty _ h2 => exact ih h2
    | msg h2 h3 => rw [textOf_unique h2 h1] at h3; exact absurd h3 (not_loose_nil _ _)
    | bad h2 h3 => exact absurd (textOf_unique h2 h1) h3
  | msg h1 h2 _ ih =>
    cases h' with
    | empty h3 => rw [textOf_unique h1 h3] at h2; exact absurd h2 (not_loose_nil _ _)
    | msg h3 h4 h5 =>
      rw [textOf_unique h3 h1] at h4
      obtain ⟨rfl, rfl⟩ := looseLine_unique h2 h4
      rw [ih h5]
    | bad h3 _ h5 => rw [textOf_unique h3 h1] at h5; exact absurd h2 (h5 _ _)
  | bad h1 h2 h3 _ ih =>
    cases h' with
    | empty h4 => exact absurd (textOf_unique h1 h4) h2
    | msg h4 h5 => rw [textOf_unique h4 h1] at h5; exact absurd h5 (h3 _ _)
    | bad _ _ _ h5 => rw [ih h5]

/-- An empty line and a message. -/
example (rs : List (Option Msg)) (h : Told 0 [[], [0x3C, 0x20, 0x30, 0x33]] rs) : rs = [some ⟨0, 0, [3]⟩] :=
  C89_told_unique h (.empty (.inr ⟨rfl, by simp⟩) (.msg (t := [0x3C, 0x20, 0x30, 0x33]) (textOf_dropCR _) (d := 0) (data := [3])
    ⟨0x3C, 0x20, [0x30, 0x33], [], [0x30, 0x33], [], rfl, by decide, rfl, by decide, by simp,
      .cons (x := 0) (y := 3) (.inl (by decide)) (.inl (by decide)) .nil, by decide, by simp⟩ .nil))

theorem msgUnmarshal_err {m m' : Msg} {t : Bytes} {e : Err} (h : msgUnmarshal m t = (m', some e)) :
    e = Err.badTrace ∧ ∀ d data, ¬ LooseLine t d data := by
  constructor
  · unfold msgUnmarshal at h
    split at h
    · simp at h; exact h.2.symm
    · split at h
      · rename_i e' he
        simp at h
        rw [← h.2]
        unfold dirUnmarshal at he
        split at he
        · split at he
          · cases he
          · split at he
            · cases he
            · cases he; rfl
        · cases he; rfl
      · simp only at h
        split at h
        · simp at h; exact h.2.symm
        · simp at h
  · intro d data hl
    rw [(msgUnmarshal_iff m ⟨d, m.ts, data⟩ t).2 ⟨hl, rfl⟩] at h
    simp at h

/-- One line read. -/
theorem scanLine_line {l rest : Bytes} (h : (0x0A : UInt8) ∉ l) :
    scanLine (l ++ 0x0A :: rest) = if 65536 ≤ l.length then .tooLong else .token (dropCR l) rest := by
  have ht : (l ++ 0x0A :: rest).takeWhile (· ≠ 0x0A) = l := by
    rw [List.takeWhile_append_of_pos (by intro x hx; simp; rintro rfl; exact h hx)]
    simp
  rw [scanLine, if_neg (by simp), ht]
  simp

theorem scanLine_last {l : Bytes} (h0 : l ≠ []) (h : (0x0A : UInt8) ∉ l) :
    scanLine l = if 65536 ≤ l.length then .tooLong else .token (dropCR l) [] := by
  have ht : l.takeWhile (· ≠ 0x0A) = l := by
    have := List.takeWhile_append_of_pos (p := fun x : UInt8 => decide (x ≠ 0x0A)) (l₁ := l) (l₂ := [])
      (by intro x hx; simp; rintro rfl; exact h hx)
    simpa using this
  rw [scanLine, if_neg h0, ht]
  dsimp only
  rw [List.drop_of_length_le (by omega)]

/-- A file with the lines `ls` is at its end, or its next line is read. -/
theorem scanLine_lines {content : Bytes} {ls : List Bytes} (h : Lines content ls) :
    (ls = [] ∧ scanLine content = .done) ∨
    ∃ l ls', ls = l :: ls' ∧ ((65536 ≤ l.length ∧ scanLine content = .tooLong) ∨
      (l.length < 65536 ∧ ∃ rest, Lines rest ls' ∧ scanLine content = .token (dropCR l) rest)) := by
  cases h with
  | none => exact .inl ⟨rfl, rfl⟩
  | last h0 h1 =>
    refine .inr ⟨_, _, rfl, ?_⟩
    rw [scanLine_last h0 h1]
    by_cases hl : 65536 ≤ content.length
    · exact .inl ⟨hl, by rw [if_pos hl]⟩
    · exact .inr ⟨by omega, [], .none, by rw [if_neg hl]⟩
  | @line l rest ls h1 h2 =>
    refine .inr ⟨_, _, rfl, ?_⟩
    rw [scanLine_line h1]
    by_cases hl : 65536 ≤ l.length
    · exact .inl ⟨hl, by rw [if_pos hl]⟩
    · exact .inr ⟨by omega, rest, h2, by rw [if_neg hl]⟩

theorem readMsgs_err (m0 : Msg) (k : Nat) (r : Reader) {e : Err} (h : r.err = some e) :
    readMsgs m0 k r = List.replicate k (.error e) := by
  induction k with
  | zero => rfl
  | succ k ih => rw [readMsgs, readMsg, h]; simp only [ih]; rfl

theorem finalErr_cons {l : Bytes} (h : l.length < 65536) (ls : List Bytes) (ending : Option Err) :
    finalErr (l :: ls) ending = finalErr ls ending := by
  unfold finalErr
  have : (∃ x ∈ l :: ls, 65536 ≤ x.length) ↔ ∃ x ∈ ls, 65536 ≤ x.length := by
    constructor
    · rintro ⟨x, hx, h'⟩
      rcases List.mem_cons.1 hx with rfl | hx
      · omega
      · exact ⟨x, hx, h'⟩
    · rintro ⟨x, hx, h'⟩
      exact ⟨x, by simp [hx], h'⟩
  by_cases hc : ∃ x ∈ ls, 65536 ≤ x.length
  · rw [if_pos hc, if_pos (this.2 hc)]
  · rw [if_neg hc, if_neg (fun h => hc (this.1 h))]

theorem finalErr_nil (ending : Option Err) : finalErr [] ending = ending.getD .eof := by simp [finalErr]

theorem finalErr_long {l : Bytes} (h : 65536 ≤ l.length) (ls : List Bytes) (ending : Option Err) : finalErr (l :: ls) ending = .tooLong := by
  rw [finalErr, if_pos ⟨l, by simp, h⟩]

theorem shortLines_cons {l : Bytes} (h : l.length < 65536) (ls : List Bytes) : shortLines (l :: ls) = l :: shortLines ls := by
  rw [shortLines, List.takeWhile_cons_of_pos (by simpa using h)]; rfl

theorem shortLines_long {l : Bytes} (h : 65536 ≤ l.length) (ls : List Bytes) : shortLines (l :: ls) = [] := by
  rw [shortLines, List.takeWhile_cons_of_neg (by simp; omega)]

/-- The reader at a place in a file. -/
abbrev readerAt (content : Bytes) (ending : Option Err) (i : Nat) : Reader := ⟨content, ending, none, UInt64.ofNat i⟩

/-- The lines always tell something. -/
theorem told_exists (i : Nat) (ls : List Bytes) : ∃ rs, Told i ls rs := by
  induction ls generalizing i with
  | nil => exact ⟨_, .nil⟩
  | cons l ls ih =>
    by_cases h0 : dropCR l = []
    · obtain ⟨rs, h⟩ := ih i
      exact ⟨rs, .empty (h0 ▸ textOf_dropCR l) h⟩
    · by_cases hl : ∃ d data, LooseLine (dropCR l) d data
      · obtain ⟨d, data, hl⟩ := hl
        obtain ⟨rs, h⟩ := ih (i + 1)
        exact ⟨_, .msg (textOf_dropCR l) hl h⟩
      · obtain ⟨rs, h⟩ := ih i
        exact ⟨_, .bad (textOf_dropCR l) h0 (fun d data h => hl ⟨d, data, h⟩) h⟩

/-- The loop of `ReadMsg` after a line that is not too long. -/
theorem readMsgLoop_token {r : Reader} {m0 : Msg} {text rest : Bytes} (h : scanLine r.content = .token text rest) :
    readMsgLoop r m0 = if text.length = 0 then readMsgLoop { r with content := rest } m0
      else match msgUnmarshal m0 text with
        | (m, some e) => ({ r with content := rest }, m, some e)
        | (m, none) => ({ r with content := rest, ts := r.ts + 1 }, { m with ts := r.ts }, none) := by
  conv => lhs; rw [readMsgLoop]
  split
  all_goals rename_i hs; rw [h] at hs; cases hs
  rfl

/-- One call of `ReadMsg`. -/
theorem readMsgLoop_told {i : Nat} {ls : List Bytes} {rs : List (Option Msg)} (ht : Told i (shortLines ls) rs) (m0 : Msg) (ending : Option Err)
    {content : Bytes} (h : Lines content ls) :
    match (generalizing := false) rs with
    | [] => ∃ r m, readMsgLoop (readerAt content ending i) m0 = (r, m, some (finalErr ls ending)) ∧ r.err = some (finalErr ls ending)
    | none :: rs => ∃ rest m ls', readMsgLoop (readerAt content ending i) m0 = (readerAt rest ending i, m, some Err.badTrace) ∧
        Lines rest ls' ∧ Told i (shortLines ls') rs ∧ finalErr ls' ending = finalErr ls ending
    | some m :: rs => ∃ rest ls', readMsgLoop (readerAt content ending i) m0 = (readerAt rest ending (i + 1), m, none) ∧
        Lines rest ls' ∧ Told (i + 1) (shortLines ls') rs ∧ finalErr ls' ending = finalErr ls ending := by
  induction ls generalizing content with
  | nil =>
    cases ht
    rcases scanLine_lines h with ⟨_, h1⟩ | ⟨_, _, h1, _⟩
    · refine ⟨{ readerAt content ending i with err := some (ending.getD .eof) }, m0, ?_, ?_⟩
      · rw [readMsgLoop]
        split
        all_goals rename_i hs; rw [h1] at hs; cases hs
        rw [finalErr_nil]
      · rw [finalErr_nil]
    · cases h1
  | cons l ls ih =>
    rcases scanLine_lines h with ⟨h1, _⟩ | ⟨l', ls', h1, h2⟩
    · cases h1
    · cases h1
      rcases h2 with ⟨hl, h2⟩ | ⟨hl, rest, h3, h2⟩
      · rw [shortLines_long hl] at ht
        cases ht
        refine ⟨{ readerAt content ending i with err := some .tooLong }, m0, ?_, ?_⟩
        · rw [readMsgLoop]
          split
          all_goals rename_i hs; rw [h2] at hs; cases hs
          rw [finalErr_long hl]
        · rw [finalErr_long hl]
      · have step := readMsgLoop_token (r := readerAt content ending i) (m0 := m0) h2
        rw [shortLines_cons hl] at ht
        rw [finalErr_cons hl]
        cases ht with
        | empty g1 g2 =>
          rw [textOf_unique (textOf_dropCR l) g1, if_pos List.length_nil] at step
          rw [step]
          exact ih g2 h3
        | @msg _ _ _ _ t d data g1 g2 g3 =>
          have he : ¬ (dropCR l).length = 0 := by
            rw [textOf_unique (textOf_dropCR l) g1]
            intro h0
            rw [List.length_eq_zero_iff.1 h0] at g2
            exact not_loose_nil _ _ g2
          rw [if_neg he, textOf_unique (textOf_dropCR l) g1, (msgUnmarshal_iff m0 ⟨d, m0.ts, data⟩ t).2 ⟨g2, rfl⟩] at step
          refine ⟨rest, ls, ?_, h3, g3, rfl⟩
          rw [step]
          simp [readerAt]
        | @bad _ _ _ _ t g1 g2 g3 g4 =>
          have he : ¬ (dropCR l).length = 0 := by
            rw [textOf_unique (textOf_dropCR l) g1]
            exact fun h0 => g2 (List.length_eq_zero_iff.1 h0)
          rw [if_neg he, textOf_unique (textOf_dropCR l) g1] at step
          rcases hu : msgUnmarshal m0 t with ⟨m, _ | e⟩
          · exact absurd ((msgUnmarshal_iff m0 m t).1 hu).1 (g3 _ _)
          · rw [hu] at step
            obtain ⟨rfl, _⟩ := msgUnmarshal_err hu
            exact ⟨rest, m, ls, step, h3, g4, rfl⟩

theorem reads_told (content : Bytes) (ending : Option Err) (m0 : Msg) {ls : List Bytes} {rs : List (Option Msg)} (h : Lines content ls)
    (k i : Nat) (ht : Told i (shortLines ls) rs) :
    readMsgs m0 (rs.length + k) (readerAt content ending i) = rs.map toldRes ++ List.replicate k (.error (finalErr ls ending)) := by
  induction rs generalizing content ls i with
  | nil =>
    cases k with
    | zero => rfl
    | succ k =>
      obtain ⟨r, m, h1, h2⟩ := readMsgLoop_told ht m0 ending h
      rw [List.length_nil, Nat.zero_add, readMsgs, readMsg]
      dsimp only
      rw [h1]
      dsimp only
      rw [readMsgs_err m0 k r h2]
      rfl
  | cons x rs ih =>
    have := readMsgLoop_told ht m0 ending h
    rw [List.length_cons, Nat.add_right_comm, readMsgs, readMsg]
    cases x with
    | none =>
      obtain ⟨rest, m, ls', h1, h2, h3, h4⟩ := this
      dsimp only
      rw [h1]
      dsimp only
      rw [ih rest h2 i h3, h4]
      rfl
    | some m =>
      obtain ⟨rest, ls', h1, h2, h3, h4⟩ := this
      dsimp only
      rw [h1]
      dsimp only
      rw [ih rest h2 (i + 1) h3, h4]
      rfl

/-- C89. What a reader delivers of any file: for its lines, up to the first that is too long, the messages in them, numbered from zero, with an
error for every line that is not accepted; and then one error for ever. -/
theorem C89_reads (content : Bytes) (ending : Option Err) (m0 : Msg) {ls : List Bytes} {rs : List (Option Msg)} (h : Lines content ls)
    (ht : Told 0 (shortLines ls) rs) (k : Nat) :
    readMsgs m0 (rs.length + k) (newReader content ending) = rs.map toldRes ++ List.replicate k (.error (finalErr ls ending)) :=
  reads_told content ending m0 h k 0 ht

/-- A file with one message. -/
example (m0 : Msg) (k : Nat) := C89_reads ([0x3C, 0x20, 0x30, 0x33] ++ 0x0A :: []) none m0 (ls := [[0x3C, 0x20, 0x30, 0x33]])
  (rs := [some ⟨0, 0, [3]⟩]) (.line (by decide) .none)
  (.msg (t := [0x3C, 0x20, 0x30, 0x33]) (textOf_dropCR _) (d := 0) (data := [3])
    ⟨0x3C, 0x20, [0x30, 0x33], [], [0x30, 0x33], [], rfl, by decide, rfl, by decide, by simp,
      .cons (x := 0) (y := 3) (.inl (by decide)) (.inl (by decide)) .nil, by decide, by simp⟩ .nil) k

/-- C89. What is told is determined by the file, and something always is. -/
theorem C89_told (content : Bytes) : ∃ ls rs, Lines content ls ∧ Told 0 (shortLines ls) rs ∧
    ∀ ls' rs', Lines content ls' → Told 0 (shortLines ls') rs' → ls' = ls ∧ rs' = rs := by
  obtain ⟨ls, h1, h2⟩ := C89_lines content
  obtain ⟨rs, h3⟩ := told_exists 0 (shortLines ls)
  refine ⟨ls, rs, h1, h3, fun ls' rs' h4 h5 => ?_⟩
  have := h2 ls' h4
  subst this
  exact ⟨rfl, C89_told_unique h5 h3⟩

/-- The error a whole file is refused with, if any: of its first bad line, or the one at its end. -/
theorem load_told {rs : List (Option Msg)} (ending : Option Err) {content : Bytes} {ls : List Bytes} (h : Lines content ls) (i : Nat)
    (ht : Told i (shortLines ls) rs) :
    loadTrace (readerAt content ending i) = if none ∈ rs then .error Err.badTrace
      else if finalErr ls ending = .eof then .ok (rs.filterMap id) else .error (finalErr ls ending) := by
  induction rs generalizing content ls i with
  | nil =>
    obtain ⟨r, m, h1, h2⟩ := readMsgLoop_told ht Msg.zero ending h
    rw [loadTrace]
    dsimp only
    split
    · rename_i hs; rw [h1] at hs; cases hs
    · rename_i hs
      rw [h1] at hs
      cases hs
      simp
  | cons x rs ih =>
    have := readMsgLoop_told ht Msg.zero ending h
    rw [loadTrace]
    dsimp only
    cases x with
    | none =>
      obtain ⟨rest, m, ls', h1, h2, h3, h4⟩ := this
      split
      · rename_i hs; rw [h1] at hs; cases hs
      · rename_i hs
        rw [h1] at hs
        cases hs
        simp
    | some m =>
      obtain ⟨rest, ls', h1, h2, h3, h4⟩ := this
      split
      · rename_i hs
        rw [h1] at hs
        cases hs
        rw [ih h2 (i + 1) h3, h4]
        by_cases hb : none ∈ rs
        · simp [hb]
        · by_cases he : finalErr ls ending = .eof
          · simp [hb, he]
          · simp [hb, he]
      · rename_i hs; rw [h1] at hs; cases hs

/-- C89. `view` reads a whole file exactly if no line is of 64 KiB or more, every line that is not empty is accepted and the file ends without an
error; the messages are then those of the lines. -/
theorem C89_load_iff (content : Bytes) (ending : Option Err) (ms : List Msg) :
    loadTrace (newReader content ending) = .ok ms ↔
      ∃ ls, Lines content ls ∧ (∀ l ∈ ls, l.length < 65536) ∧ Told 0 ls (ms.map some) ∧ (ending = none ∨ ending = some .eof) := by
  obtain ⟨ls, rs, h1, h2, h3⟩ := C89_told content
  have hload := load_told ending h1 0 h2
  have hfe : finalErr ls ending = .eof ↔ (∀ l ∈ ls, l.length < 65536) ∧ (ending = none ∨ ending = some .eof) := by
    unfold finalErr
    by_cases hc : ∃ l ∈ ls, 65536 ≤ l.length
    · rw [if_pos hc]
      obtain ⟨l, h4, h5⟩ := hc
      constructor
      · intro h; cases h
      · rintro ⟨h, _⟩; have := h l h4; omega
    · rw [if_neg hc]
      have : ∀ l ∈ ls, l.length < 65536 := fun l hl => Nat.lt_of_not_le fun h => hc ⟨l, hl, h⟩
      cases ending with
      | none => simp; exact this
      | some e => simp; exact fun _ => this
  have hshort : (∀ l ∈ ls, l.length < 65536) → shortLines ls = ls := by
    intro h
    have := List.takeWhile_append_of_pos (p := fun l : Bytes => decide (l.length < 65536)) (l₁ := ls) (l₂ := []) (by simpa using h)
    simpa [shortLines] using this
  change loadTrace (readerAt content ending 0) = .ok ms ↔ _
  rw [hload]
  constructor
  · intro h
    by_cases hb : none ∈ rs
    · rw [if_pos hb] at h; cases h
    · rw [if_neg hb] at h
      by_cases he : finalErr ls ending = .eof
      · rw [if_pos he] at h
        cases h
        obtain ⟨h4, h5⟩ := hfe.1 he
        refine ⟨ls, h1, h4, ?_, h5⟩
        rw [hshort h4] at h2
        have : (rs.filterMap id).map some = rs := by
          clear h2 h3 hload
          induction rs with
          | nil => rfl
          | cons x rs ih =>
            cases x with
            | none => simp at hb
            | some m => simp at hb ih ⊢; exact ih hb
        rwa [this]
      · rw [if_neg he] at h; cases h
  · rintro ⟨ls', h4, h5, h6, h7⟩
    obtain ⟨rfl, hrs⟩ := h3 ls' (ms.map some) h4 (by
      have : shortLines ls' = ls' := by
        have := List.takeWhile_append_of_pos (p := fun l : Bytes => decide (l.length < 65536)) (l₁ := ls') (l₂ := []) (by simpa using h5)
        simpa [shortLines] using this
      rw [this]
      exact h6)
    subst hrs
    rw [if_neg (by simp), if_pos (hfe.2 ⟨h5, h7⟩)]
    simp

theorem dirReads_final (dir : Trace.Dir) (size k : Nat) (r : Reader) {e : Err} (h : r.err = some e) :
    dirReads dir size k r = List.replicate k ⟨[], some e⟩ := by
  induction k with
  | zero => rfl
  | succ k ih =>
    have : dirReaderRead dir size r = (r, ⟨[], some e⟩) := by rw [dirReaderRead, h]
    rw [dirReads, this, ih]
    rfl

/-- C89. What a reader of one direction returns for any file: the data of the messages of that direction, cut to the room there is, an error for every
line that is not accepted, and then one error for ever. -/
theorem C89_direction (content : Bytes) (ending : Option Err) (dir : Trace.Dir) (size : Nat) {ls : List Bytes} {rs : List (Option Msg)}
    (h : Lines content ls) (ht : Told 0 (shortLines ls) rs) (k : Nat) :
    dirReads dir size ((rs.filterMap (dirRes dir size)).length + k) (newReader content ending) =
      rs.filterMap (dirRes dir size) ++ List.replicate k ⟨[], some (finalErr ls ending)⟩ := by
  suffices ∀ i, Told i (shortLines ls) rs →
      (∀ k, dirReads dir size ((rs.filterMap (dirRes dir size)).length + k) (readerAt content ending i) =
      rs.filterMap (dirRes dir size) ++ List.replicate k ⟨[], some (finalErr ls ending)⟩) from this 0 ht k
  clear ht
  induction rs generalizing content ls with
  | nil =>
    intro i ht k
    cases k with
    | zero => rfl
    | succ k =>
      obtain ⟨r, m, h1, h2⟩ := readMsgLoop_told ht Msg.zero ending h
      have : dirReaderRead dir size (readerAt content ending i) = (r, ⟨[], some (finalErr ls ending)⟩) := by
        rw [dirReaderRead]
        dsimp only
        split
        · rename_i hs; rw [h1] at hs; cases hs
        · rename_i hs; rw [h1] at hs; cases hs; rfl
      simp only [List.filterMap_nil, List.length_nil, Nat.zero_add]
      rw [dirReads, this]
      dsimp only
      rw [dirReads_final dir size k r h2]
      rfl
  | cons x rs ih =>
    intro i ht k
    have := readMsgLoop_told ht Msg.zero ending h
    cases x with
    | none =>
      obtain ⟨rest, m, ls', h1, h2, h3, h4⟩ := this
      have hr : dirReaderRead dir size (readerAt content ending i) = (readerAt rest ending i, ⟨[], some Err.badTrace⟩) := by
        rw [dirReaderRead]
        dsimp only
        split
        · rename_i hs; rw [h1] at hs; cases hs
        · rename_i hs; rw [h1] at hs; cases hs; rfl
      rw [List.filterMap_cons_some (f := dirRes dir size) (b := (⟨[], some Err.badTrace⟩ : ReadRes)) rfl, List.length_cons, Nat.add_right_comm, dirReads, hr]
      dsimp only
      rw [ih rest h2 i h3 k, h4]
      rfl
    | some m =>
      obtain ⟨rest, ls', h1, h2, h3, h4⟩ := this
      by_cases hd : m.dir = dir
      · have hr : dirReaderRead dir size (readerAt content ending i) = (readerAt rest ending (i + 1), ⟨m.data.take size, none⟩) := by
          rw [dirReaderRead]
          dsimp only
          split
          · rename_i hs; rw [h1] at hs; cases hs; rw [if_neg (by simp [hd])]
          · rename_i hs; rw [h1] at hs; cases hs
        rw [List.filterMap_cons_some (b := (⟨m.data.take size, none⟩ : ReadRes)) (by simp [dirRes, hd]), List.length_cons, Nat.add_right_comm,
          dirReads, hr]
        dsimp only
        rw [ih rest h2 (i + 1) h3 k, h4]
        rfl
      · have hr : dirReaderRead dir size (readerAt content ending i) = dirReaderRead dir size (readerAt rest ending (i + 1)) := by
          conv => lhs; rw [dirReaderRead]
          dsimp only
          split
          · rename_i hs; rw [h1] at hs; cases hs; rw [if_pos hd]
          · rename_i hs; rw [h1] at hs; cases hs
        rw [List.filterMap_cons_none (by simp [dirRes, hd]), ← h4, ← ih rest h2 (i + 1) h3 k]
        cases hk : (rs.filterMap (dirRes dir size)).length + k with
        | zero => rfl
        | succ n => rw [dirReads, dirReads, hr]

/-- The input side of a file with one message. -/
example (k : Nat) := C89_direction ([0x3C, 0x20, 0x30, 0x33] ++ 0x0A :: []) none 0 4096 (ls := [[0x3C, 0x20, 0x30, 0x33]])
  (rs := [some ⟨0, 0, [3]⟩]) (.line (by decide) .none)
  (.msg (t := [0x3C, 0x20, 0x30, 0x33]) (textOf_dropCR _) (d := 0) (data := [3])
    ⟨0x3C, 0x20, [0x30, 0x33], [], [0x30, 0x33], [], rfl, by decide, rfl, by decide, by simp,
      .cons (x := 0) (y := 3) (.inl (by decide)) (.inl (by decide)) .nil, by decide, by simp⟩ .nil) k

/-- C89. A trace written over an older file is read first, whole; then what the lines left of the old file tell, the first of them, as a rule,
being a part of a line. -/
theorem C89_overwritten (old : Bytes) (ending : Option Err) (m0 : Msg) {ms : List Msg} (hm : ∀ m ∈ ms, Traceable m) {ls : List Bytes}
    {rs : List (Option Msg)} (h : Lines (old.drop (traceText ms).length) ls) (ht : Told ms.length (shortLines ls) rs) (k : Nat) :
    readMsgs m0 (ms.length + (rs.length + k)) (newReader (fileAfter old (traceText ms)) ending) =
      (ms.zipIdx.map fun p => .ok ⟨p.1.dir, UInt64.ofNat p.2, p.1.data⟩) ++
        (rs.map toldRes ++ List.replicate k (.error (finalErr ls ending))) := by
  rw [fileAfter]
  generalize old.drop (traceText ms).length = left at h
  suffices ∀ i, Told (i + ms.length) (shortLines ls) rs → readMsgs m0 (ms.length + (rs.length + k)) (readerAt (traceText ms ++ left) ending i) =
      ((ms.zipIdx i).map fun p => .ok ⟨p.1.dir, UInt64.ofNat p.2, p.1.data⟩) ++
        (rs.map toldRes ++ List.replicate k (.error (finalErr ls ending))) from this 0 (by rwa [Nat.zero_add])
  clear ht
  induction ms with
  | nil =>
    intro i ht
    simpa [traceText] using reads_told left ending m0 h k i ht
  | cons m ms ih =>
    intro i ht
    rw [List.length_cons, Nat.add_right_comm, readMsgs, readMsg,
      show traceText (m :: ms) ++ left = lineOf ((signOf m.dir).getD 0) m.data ++ 0x0A :: (traceText ms ++ left) by simp [traceText]]
    simp only [readMsgLoop_line (hm m (by simp)), List.zipIdx_cons, List.map_cons, List.cons_append]
    rw [show UInt64.ofNat i + 1 = UInt64.ofNat (i + 1) by simp, ih (fun m h => hm m (by simp [h])) (i + 1) (by
      rwa [show i + 1 + ms.length = i + (m :: ms).length by simp; omega])]

theorem told_all_iff {i : Nat} {ls : List Bytes} {rs : List (Option Msg)} (h : Told i ls rs) :
    none ∈ rs ↔ ∃ l ∈ ls, BadLine l := by
  induction h with
  | nil => simp
  | @empty i l ls rs h1 _ ih =>
    rw [ih]
    have : ¬ BadLine l := by rintro ⟨t, h2, h3, _⟩; exact h3 (textOf_unique h2 h1)
    simp [this]
  | @msg i l ls rs t d data h1 h2 _ ih =>
    have : ¬ BadLine l := by rintro ⟨t', h3, _, h5⟩; rw [textOf_unique h3 h1] at h5; exact h5 _ _ h2
    simp [this, ih]
  | bad h1 h2 h3 => simp; exact .inl ⟨_, h1, h2, h3⟩

/-- C89. So recording a session to the file of an older, longer one can leave a file that `view` refuses, though it would show either trace. -/
theorem C89_fails : ∃ old new : List Msg, (∀ m ∈ old ++ new, Traceable m) ∧
    loadTrace (newReader (fileAfter (traceText old) (traceText new)) none) = .error Err.badTrace := by
  refine ⟨[⟨0, 0, [1, 2]⟩], [⟨0, 0, [3]⟩], ?_, ?_⟩
  · intro m hm
    simp only [List.cons_append, List.nil_append, List.mem_cons, List.not_mem_nil, or_false] at hm
    rcases hm with rfl | rfl <;> exact ⟨.inl rfl, by decide, by decide⟩
  · have e : fileAfter (traceText [⟨0, 0, [1, 2]⟩]) (traceText [⟨0, 0, [3]⟩]) =
        [0x3C, 0x20, 0x30, 0x33] ++ 0x0A :: ([0x30, 0x32] ++ 0x0A :: []) := by decide
    rw [e]
    have hl : Lines ([0x3C, 0x20, 0x30, 0x33] ++ 0x0A :: ([0x30, 0x32] ++ 0x0A :: [])) [[0x3C, 0x20, 0x30, 0x33], [0x30, 0x32]] :=
      .line (by decide) (.line (by decide) .none)
    obtain ⟨rs, ht⟩ := told_exists 0 (shortLines [[0x3C, 0x20, 0x30, 0x33], [0x30, 0x32]])
    have hn : none ∈ rs := by
      rw [show shortLines [[0x3C, 0x20, 0x30, 0x33], [0x30, 0x32]] = [[0x3C, 0x20, 0x30, 0x33], [0x30, 0x32]] by decide] at ht
      refine (told_all_iff ht).2 ⟨[0x30, 0x32], by simp, [0x30, 0x32], textOf_dropCR _, by decide, ?_⟩
      rintro d data ⟨sign, c, rest, _, _, _, h, h2, _⟩
      simp at h
      rw [h.2.2] at h2
      simp at h2
    rw [newReader]
    change loadTrace (readerAt _ none 0) = _
    rw [load_told none hl 0 ht, if_pos hn]

/-- No more is told than there are lines. -/
theorem told_length {i : Nat} {ls : List Bytes} {rs : List (Option Msg)} (h : Told i ls rs) : rs.length ≤ ls.length := by
  induction h with
  | nil => exact Nat.le_refl _
  | empty _ _ ih => simp; omega
  | msg _ _ _ ih => simpa using ih
  | bad _ _ _ _ ih => simpa using ih

/-- C89. A whole file is refused exactly if one of its lines is of 64 KiB or more or neither empty nor accepted, or it cannot be read to its end. -/
theorem C89_refused_iff (content : Bytes) (ending : Option Err) {ls : List Bytes} (h : Lines content ls) :
    (∃ e, loadTrace (newReader content ending) = .error e) ↔
      (∃ l ∈ ls, 65536 ≤ l.length ∨ BadLine l) ∨ (∃ e, ending = some e ∧ e ≠ .eof) := by
  obtain ⟨rs, ht⟩ := told_exists 0 (shortLines ls)
  have e := load_told ending h 0 ht
  change (∃ e, loadTrace (readerAt content ending 0) = .error e) ↔ _
  rw [e]
  have hb := told_all_iff ht
  by_cases hlong : ∃ l ∈ ls, 65536 ≤ l.length
  · have hf : finalErr ls ending = .tooLong := by rw [finalErr, if_pos hlong]
    obtain ⟨l, h1, h2⟩ := hlong
    rw [hf]
    constructor
    · intro _; exact .inl ⟨l, h1, .inl h2⟩
    · intro _
      by_cases hn : none ∈ rs
      · exact ⟨_, by rw [if_pos hn]⟩
      · exact ⟨_, by rw [if_neg hn, if_neg (by decide)]⟩
  · have hs : shortLines ls = ls := by
      have := List.takeWhile_append_of_pos (p := fun l : Bytes => decide (l.length < 65536)) (l₁ := ls) (l₂ := []) (by
        intro l hl; simpa using Nat.lt_of_not_le fun h => hlong ⟨l, hl, h⟩)
      simpa [shortLines] using this
    rw [hs] at hb
    have hf : finalErr ls ending = ending.getD .eof := by rw [finalErr, if_neg hlong]
    have hl : (∃ l ∈ ls, 65536 ≤ l.length ∨ BadLine l) ↔ none ∈ rs := by
      rw [hb]
      constructor
      · rintro ⟨l, h1, h2 | h2⟩
        · exact absurd ⟨l, h1, h2⟩ hlong
        · exact ⟨l, h1, h2⟩
      · rintro ⟨l, h1, h2⟩; exact ⟨l, h1, .inr h2⟩
    rw [hl, hf]
    by_cases hn : none ∈ rs
    · rw [if_pos hn]
      exact ⟨fun _ => .inl hn, fun _ => ⟨_, rfl⟩⟩
    · rw [if_neg hn]
      cases ending with
      | none => simp [hn]
      | some e' =>
        by_cases he : e' = .eof
        · simp [hn, he]
        · simp [hn, he]

/-- A file whose only line is not a message, read without an error. -/
example : (∃ e, loadTrace (newReader ([0x30, 0x32] ++ 0x0A :: []) none) = .error e) ↔
    (∃ l ∈ [[0x30, 0x32]], 65536 ≤ l.length ∨ BadLine l) ∨ (∃ e, (none : Option Err) = some e ∧ e ≠ .eof) :=
  C89_refused_iff _ none (.line (by decide) .none)

/-- The file of `C89_fails` and what it tells: the new message, and an error. -/
example : ∃ rs, Lines ([0x3C, 0x20, 0x30, 0x33] ++ 0x0A :: ([0x30, 0x32] ++ 0x0A :: [])) [[0x3C, 0x20, 0x30, 0x33], [0x30, 0x32]] ∧
    Told 0 (shortLines [[0x3C, 0x20, 0x30, 0x33], [0x30, 0x32]]) rs ∧ rs = [some ⟨0, 0, [3]⟩, none] := by
  refine ⟨_, .line (by decide) (.line (by decide) .none), .msg (t := [0x3C, 0x20, 0x30, 0x33]) (textOf_dropCR _) (d := 0) (data := [3]) ?_
    (.bad (textOf_dropCR [0x30, 0x32]) (by decide) ?_ .nil), rfl⟩
  · exact ⟨0x3C, 0x20, [0x30, 0x33], [], [0x30, 0x33], [], rfl, by decide, rfl, by decide, by simp,
      .cons (x := 0) (y := 3) (.inl (by decide)) (.inl (by decide)) .nil, by decide, by simp⟩
  · rintro d data ⟨sign, c, rest, _, _, _, h, h2, _⟩
    have : rest = [] := by
      have := congrArg (List.drop 2) h
      simpa [dropCR] using this.symm
    rw [this] at h2
    simp at h2

end Props
