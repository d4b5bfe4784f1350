import Verif.Spec.LogText
import Verif.Props.ErrText
import Verif.Props.TraceFile

/-! Properties of the error texts of trace files (C104). -/

namespace Props
open Go Spec Ipod Ipod.Hid Ipod.Trace Ipod.Log

theorem fmtC_text (c : UInt8) : CharText c (fmtC c) := by
  have key : ∀ n : Fin 256, (UInt8.ofNat n.1 < 0x80 ↔ n.1 < 128) ∧
      (128 ≤ n.1 → ((0xC0 : UInt8) ||| (UInt8.ofNat n.1 >>> 6)).toNat = 192 + n.1 / 64 ∧
        ((0x80 : UInt8) ||| (UInt8.ofNat n.1 &&& 0x3F)).toNat = 128 + n.1 % 64) := by decide +kernel
  have := key ⟨c.toNat, c.toNat_lt⟩
  simp only [UInt8.ofNat_toNat] at this
  rw [fmtC]
  by_cases h : c < 0x80
  · rw [if_pos h]; exact .one (this.1.1 h)
  · rw [if_neg h]
    have h' : 128 ≤ c.toNat := Nat.le_of_not_lt fun h' => h (this.1.2 h')
    exact .two h' (this.2 h').1 (this.2 h').2

theorem charText_unique {c : UInt8} {s s' : Bytes} (h : CharText c s) (h' : CharText c s') : s = s' := by
  cases h with
  | one h1 =>
    cases h' with
    | one => rfl
    | two h2 => omega
  | two h1 ha hb =>
    cases h' with
    | one h2 => omega
    | two _ ha' hb' =>
      rw [UInt8.toNat_inj.1 (ha.trans ha'.symm), UInt8.toNat_inj.1 (hb.trans hb'.symm)]

theorem numbers_map (b : Bytes) : Numbers b (b.map fun c => formatInt10 c.toNat) := by
  induction b with
  | nil => exact .nil
  | cons c b ih => exact .cons (formatInt10_text _ (Nat.lt_trans c.toNat_lt (by decide))) ih

theorem numbers_unique {b : Bytes} {ds ds' : List Bytes} (h : Numbers b ds) (h' : Numbers b ds') : ds = ds' := by
  induction h generalizing ds' with
  | nil => cases h'; rfl
  | cons h1 _ ih =>
    cases h' with
    | cons h2 h3 => rw [numberText_unique (by omega) h1 h2, ih h3]

theorem joined_same {sep : Bytes} {ss : List Bytes} {s s' : Bytes} (h : Joined sep ss s) (h' : Joined sep ss s') : s = s' := by
  induction h generalizing s' with
  | none => cases h'; rfl
  | one => cases h'; rfl
  | more _ ih =>
    cases h' with
    | more h2 => rw [ih h2]

theorem dirFails_unique {t x x' : Bytes} (h : DirFails t x) (h' : DirFails t x') : x = x' := by
  cases h with
  | length h1 h2 h3 =>
    cases h' with
    | length _ h2' h3' =>
      cases numbers_unique h2 h2'
      rw [joined_same h3 h3']
    | symbol h4 => rw [h4] at h1; exact absurd rfl h1
  | symbol h1 h2 h3 h4 =>
    cases h' with
    | length h5 => rw [h1] at h5; exact absurd rfl h5
    | symbol h5 _ _ h6 =>
      rw [h1] at h5
      cases h5
      rw [charText_unique h4 h6]

theorem dirUnmarshalText_fails {t x : Bytes} (h : dirUnmarshalText t = some x) : DirFails t x := by
  have long : ∀ t : Bytes, t.length ≠ 1 → DirFails t (ascii "trace dir unmarshal: bad value " ++ fmtBytesV t) := by
    intro t ht
    have e : ascii "trace dir unmarshal: bad value " ++ fmtBytesV t =
        ascii "trace dir unmarshal: bad value [" ++ joinStrings (ascii " ") (t.map fun c => formatInt10 c.toNat) ++ ascii "]" := by
      rw [fmtBytesV, show ascii "trace dir unmarshal: bad value [" = ascii "trace dir unmarshal: bad value " ++ [0x5B] by decide +kernel,
        show ascii "]" = [0x5D] by decide +kernel, show ascii " " = [0x20] by decide +kernel]
      simp only [List.append_assoc]
    rw [e]
    exact .length ht (numbers_map t) (joinStrings_joined _ _)
  unfold dirUnmarshalText at h
  split at h
  · rename_i c
    by_cases h1 : c = 0x3C
    · rw [if_pos h1] at h; cases h
    · rw [if_neg h1] at h
      by_cases h2 : c = 0x3E
      · rw [if_pos h2] at h; cases h
      · rw [if_neg h2] at h
        cases h
        exact .symbol rfl h1 h2 (fmtC_text c)
  · rename_i hne
    cases h
    refine long t fun hl => ?_
    match t, hl with
    | [c], _ => exact hne c rfl

/-- C104. What the error of reading a direction says: exactly why the text is none. -/
theorem C104_direction (t x : Bytes) : dirUnmarshalText t = some x ↔ DirFails t x := by
  refine ⟨dirUnmarshalText_fails, fun h => ?_⟩
  cases hx : dirUnmarshalText t with
  | some x' => rw [dirFails_unique h (dirUnmarshalText_fails hx)]
  | none =>
    exfalso
    unfold dirUnmarshalText at hx
    split at hx
    · rename_i c
      cases h with
      | length h1 => exact h1 rfl
      | symbol h1 h2 h3 =>
        cases h1
        rw [if_neg h2, if_neg h3] at hx
        cases hx
    · cases hx

example : dirUnmarshalText [0xE9] = some (ascii "trace dir unmarshal: unknown symbol '" ++ [0xC3, 0xA9] ++ ascii "'") ∧
    dirUnmarshalText (ascii "<>") = some (ascii "trace dir unmarshal: bad value [60 62]") := by decide +kernel

/-- C104. There is a text exactly if there is an error. -/
theorem C104_direction_agrees (t : Bytes) : dirUnmarshalText t = none ↔ ∃ d, dirUnmarshal t = .ok d := by
  unfold dirUnmarshalText dirUnmarshal
  split
  · rename_i c
    by_cases h1 : c = 0x3C
    · simp [h1]
    · by_cases h2 : c = 0x3E
      · simp [h2]
      · simp [h1, h2]
  · simp

/-- C104. The same for lines. -/
theorem C104_line_agrees (m : Msg) (t : Bytes) : msgUnmarshalText t = none ↔ (msgUnmarshal m t).2 = none := by
  have hd := C104_direction_agrees (t.take 1)
  unfold msgUnmarshalText msgUnmarshal
  by_cases h : t.length < 4
  · rw [if_pos h, if_pos h]; simp
  · rw [if_neg h, if_neg h]
    cases hx : dirUnmarshalText (t.take 1) with
    | some x =>
      rw [hx] at hd
      cases hy : dirUnmarshal (t.take 1) with
      | ok d => exact absurd (hd.2 ⟨d, hy⟩) (by simp)
      | error e => simp
    | none =>
      obtain ⟨d, hy⟩ := hd.1 hx
      rw [hy]
      cases sscanfHex (dropByte 0x20 (t.drop 2)) <;> simp

theorem not_loose {m : Msg} {t : Bytes} (h : (msgUnmarshal m t).2 ≠ none) (d : Trace.Dir) (data : Bytes) : ¬ LooseLine t d data := by
  intro hl
  exact h (by rw [(msgUnmarshal_iff m ⟨d, m.ts, data⟩ t).2 ⟨hl, rfl⟩])

theorem lineFails_unique {t x x' : Bytes} (h : LineFails t x) (h' : LineFails t x') : x = x' := by
  cases h with
  | short h1 =>
    cases h' with
    | short => rfl
    | sign h2 => omega
    | data h2 => omega
  | sign h1 h2 h3 h4 h5 =>
    cases h' with
    | short => omega
    | sign _ h2' _ _ h5' =>
      rw [h2] at h2'
      cases h2'
      rw [charText_unique h5 h5']
    | data _ h2' h6 =>
      rw [h2] at h2'
      cases h2'
      rcases h6 with h6 | h6
      · exact absurd h6 h3
      · exact absurd h6 h4
  | data h1 h2 h3 =>
    cases h' with
    | short => omega
    | sign _ h2' h4 h5 =>
      rw [h2] at h2'
      cases h2'
      rcases h3 with h3 | h3
      · exact absurd h3 h4
      · exact absurd h3 h5
    | data => rfl

theorem msgUnmarshalText_fails {t x : Bytes} (h : msgUnmarshalText t = some x) : LineFails t x := by
  have hn : ∀ d data, ¬ LooseLine t d data := not_loose (m := Msg.zero) fun h0 => by
    rw [(C104_line_agrees Msg.zero t).2 h0] at h; cases h
  unfold msgUnmarshalText at h
  by_cases h4 : t.length < 4
  · rw [if_pos h4] at h
    cases h
    exact .short h4
  · rw [if_neg h4] at h
    match t, h4 with
    | c :: r, h4 =>
      rw [show (c :: r).take 1 = [c] from rfl] at h
      cases hx : dirUnmarshalText [c] with
      | some x' =>
        rw [hx] at h
        cases h
        cases dirUnmarshalText_fails hx with
        | length h1 => exact absurd rfl h1
        | symbol h1 h2 h3 h5 => cases h1; exact .sign (by omega) rfl h2 h3 h5
      | none =>
        rw [hx] at h
        have hc : c = 0x3C ∨ c = 0x3E := by
          by_cases h1 : c = 0x3C
          · exact .inl h1
          · by_cases h2 : c = 0x3E
            · exact .inr h2
            · rw [dirUnmarshalText, if_neg h1, if_neg h2] at hx; cases hx
        dsimp only at h
        split at h
        · cases h
          exact .data (by omega) rfl hc hn
        · cases h

/-- C104. What the error of reading a line says: exactly why the line is not accepted. -/
theorem C104_line (t x : Bytes) : msgUnmarshalText t = some x ↔ LineFails t x := by
  refine ⟨msgUnmarshalText_fails, fun h => ?_⟩
  cases hx : msgUnmarshalText t with
  | some x' => rw [lineFails_unique h (msgUnmarshalText_fails hx)]
  | none =>
    exfalso
    have h0 := (C104_line_agrees Msg.zero t).1 hx
    have hl : LooseLine t (msgUnmarshal Msg.zero t).1.dir (msgUnmarshal Msg.zero t).1.data :=
      ((msgUnmarshal_iff Msg.zero _ t).1 (Prod.ext rfl h0)).1
    cases h with
    | short h1 =>
      obtain ⟨sign, c, rest, _, _, _, h2, h3, _⟩ := hl
      rw [h2] at h1
      simp at h1
      omega
    | sign h1 h2 h3 h4 =>
      obtain ⟨sign, c, rest, _, _, _, h5, _, h6, _⟩ := hl
      rw [h2] at h5
      simp only [List.cons.injEq] at h5
      rw [← h5.1] at h6
      generalize (msgUnmarshal Msg.zero t).1.dir = d at h6
      simp only [signOf] at h6
      split at h6
      · cases h6; exact h3 rfl
      · split at h6
        · cases h6; exact h4 rfl
        · cases h6
    | data _ _ _ h1 => exact h1 _ _ hl

example : LineFails (ascii "# 55 02") (ascii "trace dir unmarshal: unknown symbol '#'") ∧
    LineFails (ascii "< zz") (ascii "trace unmarshal: bad data") ∧ LineFails (ascii "<") (ascii "trace unmarshal: short msg") := by
  refine ⟨(C104_line _ _).1 ?_, (C104_line _ _).1 ?_, (C104_line _ _).1 ?_⟩ <;> decide +kernel

/-- C104. What the error of writing a message down says. -/
theorem C104_marshal (m : Msg) (x : Bytes) : msgMarshalText m = some x ↔ MsgFails m x := by
  have huniq : ∀ x', MsgFails m x → MsgFails m x' → x = x' := by
    intro x' h h'
    cases h with
    | dir h1 h2 h3 =>
      cases h' with
      | dir _ _ h3' => rw [numberText_unique (by omega) h3 h3']
      | empty h4 => rcases h4 with h4 | h4 <;> contradiction
    | empty h1 =>
      cases h' with
      | dir h2 h3 => rcases h1 with h4 | h4 <;> contradiction
      | empty => rfl
  have hto : ∀ x, msgMarshalText m = some x → MsgFails m x := by
    intro x h
    unfold msgMarshalText dirMarshalText at h
    by_cases h0 : m.dir = dirIn
    · rw [if_pos h0] at h
      dsimp only at h
      by_cases hl : m.data.length = 0
      · rw [if_pos hl] at h
        cases h
        exact .empty (.inl h0) (List.length_eq_zero_iff.1 hl)
      · rw [if_neg hl] at h; cases h
    · rw [if_neg h0] at h
      by_cases h1 : m.dir = dirOut
      · rw [if_pos h1] at h
        dsimp only at h
        by_cases hl : m.data.length = 0
        · rw [if_pos hl] at h
          cases h
          exact .empty (.inr h1) (List.length_eq_zero_iff.1 hl)
        · rw [if_neg hl] at h; cases h
      · rw [if_neg h1] at h
        cases h
        exact .dir h0 h1 (formatInt10_text _ (Nat.lt_trans m.dir.toNat_lt (by decide)))
  refine ⟨hto x, fun h => ?_⟩
  cases hx : msgMarshalText m with
  | some x' => rw [huniq x' h (hto x' hx)]
  | none =>
    exfalso
    unfold msgMarshalText dirMarshalText at hx
    cases h with
    | dir h1 h2 => rw [if_neg h1, if_neg h2] at hx; cases hx
    | empty h1 h2 =>
      rcases h1 with h1 | h1
      · rw [if_pos h1, h2] at hx; cases hx
      · rw [h1, h2] at hx; simp at hx

example : MsgFails ⟨7, 0, [1]⟩ (ascii "bad dir: 7") ∧ MsgFails ⟨0, 0, []⟩ (ascii "trace marshal: no data") :=
  ⟨(C104_marshal _ _).1 (by decide +kernel), (C104_marshal _ _).1 (by decide +kernel)⟩

/-- C104. There is a text exactly if there is an error. -/
theorem C104_marshal_agrees (m : Msg) : msgMarshalText m = none ↔ ∃ t, msgMarshal m = .ok t := by
  unfold msgMarshalText msgMarshal dirMarshalText dirMarshal
  by_cases h0 : m.dir = dirIn
  · by_cases hl : m.data.length = 0 <;> simp [h0, hl]
  · by_cases h1 : m.dir = dirOut
    · rw [if_neg h0, if_pos h1, if_neg h0, if_pos h1]
      by_cases hl : m.data.length = 0 <;> simp [hl]
    · simp [h0, h1]

/-! ### files -/

/-- The lines always tell something. -/
theorem tells_exists (i : Nat) (ls : List Bytes) : ∃ rs, Tells i ls rs := by
  induction ls generalizing i with
  | nil => exact ⟨_, .nil⟩
  | cons l ls ih =>
    by_cases h0 : dropCR l = []
    · obtain ⟨rs, h⟩ := ih i
      exact ⟨rs, .empty (h0 ▸ textOf_dropCR l) h⟩
    · cases hx : msgUnmarshalText (dropCR l) with
      | none =>
        have h1 := (C104_line_agrees Msg.zero _).1 hx
        obtain ⟨rs, h⟩ := ih (i + 1)
        exact ⟨_, .msg (textOf_dropCR l) ((msgUnmarshal_iff Msg.zero _ _).1 (Prod.ext rfl h1)).1 h⟩
      | some x =>
        obtain ⟨rs, h⟩ := ih i
        refine ⟨_, .bad (textOf_dropCR l) h0 (msgUnmarshalText_fails hx) (not_loose (m := Msg.zero) fun h1 => ?_) h⟩
        rw [(C104_line_agrees Msg.zero _).2 h1] at hx
        cases hx

/-- What is told without the texts. -/
def erase : Except Bytes Msg → Option Msg
  | .ok m => some m
  | .error _ => none

theorem tells_told {i : Nat} {ls : List Bytes} {rs : List (Except Bytes Msg)} (h : Tells i ls rs) : Told i ls (rs.map erase) := by
  induction h with
  | nil => exact .nil
  | empty h1 _ ih => exact .empty h1 ih
  | msg h1 h2 _ ih => exact .msg h1 h2 ih
  | bad h1 h2 _ h3 _ ih => exact .bad h1 h2 h3 ih

/-- C104. What the lines tell, texts of the errors included, is determined, and without the texts it is what they told before. -/
theorem C104_tells (i : Nat) (ls : List Bytes) : ∃ rs, Tells i ls rs ∧ (∀ rs', Tells i ls rs' → rs' = rs) := by
  obtain ⟨rs, h⟩ := tells_exists i ls
  refine ⟨rs, h, ?_⟩
  induction h with
  | nil => intro rs' h'; cases h'; rfl
  | empty h1 _ ih =>
    intro rs' h'
    cases h' with
    | empty _ h2 => exact ih _ h2
    | msg h2 h3 => rw [textOf_unique h2 h1] at h3; exact absurd h3 (not_loose_nil _ _)
    | bad h2 h3 => exact absurd (textOf_unique h2 h1) h3
  | msg h1 h2 _ ih =>
    intro rs' h'
    cases h' with
    | empty h3 => rw [textOf_unique h1 h3] at h2; exact absurd h2 (not_loose_nil _ _)
    | msg h3 h4 h5 =>
      rw [textOf_unique h3 h1] at h4
      obtain ⟨rfl, rfl⟩ := looseLine_unique h2 h4
      rw [ih _ h5]
    | bad h3 _ _ h5 => rw [textOf_unique h3 h1] at h5; exact absurd h2 (h5 _ _)
  | bad h1 h2 h3 h4 _ ih =>
    intro rs' h'
    cases h' with
    | empty h5 => exact absurd (textOf_unique h1 h5) h2
    | msg h5 h6 => rw [textOf_unique h5 h1] at h6; exact absurd h6 (h4 _ _)
    | bad h5 _ h6 _ h7 =>
      rw [textOf_unique h5 h1] at h6
      rw [lineFails_unique h6 h3, ih _ h7]

theorem endText_cons {os : Err → Bytes} {l : Bytes} (h : l.length < 65536) (ls : List Bytes) (ending : Option Err) :
    endText os (l :: ls) ending = endText os ls ending := by
  unfold endText
  have : (∃ x ∈ l :: ls, 65536 ≤ x.length) ↔ ∃ x ∈ ls, 65536 ≤ x.length := by
    constructor
    · rintro ⟨x, hx, h'⟩
      rcases List.mem_cons.1 hx with rfl | hx
      · omega
      · exact ⟨x, hx, h'⟩
    · rintro ⟨x, hx, h'⟩
      exact ⟨x, by simp [hx], h'⟩
  by_cases hc : ∃ x ∈ ls, 65536 ≤ x.length
  · rw [if_pos hc, if_pos (this.2 hc)]
  · rw [if_neg hc, if_neg (fun h => hc (this.1 h))]

theorem endText_long {os : Err → Bytes} {l : Bytes} (h : 65536 ≤ l.length) (ls : List Bytes) (ending : Option Err) :
    endText os (l :: ls) ending = some (ascii "bufio.Scanner: token too long") := by
  rw [endText.eq_def, if_pos ⟨l, by simp, h⟩]

/-- There is such a text exactly if the error is not the end of the file. -/
theorem endText_none {os : Err → Bytes} (ls : List Bytes) (ending : Option Err) : endText os ls ending = none ↔ finalErr ls ending = .eof := by
  unfold endText finalErr
  by_cases hc : ∃ x ∈ ls, 65536 ≤ x.length
  · rw [if_pos hc, if_pos hc]; simp
  · rw [if_neg hc, if_neg hc]
    cases ending with
    | none => simp
    | some e =>
      by_cases he : e = .eof
      · simp [he]
      · simp [he]

/-- The text of the error after the last message. -/
def lastText (os : Err → Bytes) (ls : List Bytes) (ending : Option Err) : Bytes := (endText os ls ending).getD (ascii "EOF")

theorem plain_eof : plainText .eof = ascii "EOF" := by decide +kernel
theorem plain_tooLong : plainText .tooLong = ascii "bufio.Scanner: token too long" := by decide +kernel

theorem kept_last {os : Err → Bytes} (hos : ∀ e, e = .eof ∨ e = .tooLong → os e = plainText e) (ls : List Bytes) (ending : Option Err) :
    keptText os (finalErr ls ending) = lastText os ls ending := by
  unfold finalErr lastText endText keptText
  by_cases hc : ∃ x ∈ ls, 65536 ≤ x.length
  · simp [if_pos hc, plain_tooLong]
  · simp only [if_neg hc]
    cases ending with
    | none => simp [plain_eof]
    | some e =>
      by_cases he : e = .eof
      · simp [he, plain_eof]
      · by_cases hl : e = .tooLong
        · simp [hl, hos]
        · simp [he, hl]

theorem readMsgLoopText_token {os : Err → Bytes} {ending : Option Err} {content text rest : Bytes} (h : scanLine content = .token text rest) :
    readMsgLoopText os content ending =
      if text.length = 0 then readMsgLoopText os rest ending else (msgUnmarshalText text).getD [] := by
  conv => lhs; rw [readMsgLoopText.eq_def]
  split
  all_goals rename_i hs; rw [h] at hs; cases hs
  rfl

/-- One call of `ReadMsg`, with what its error says. -/
theorem tells_step {os : Err → Bytes} (hos : ∀ e, e = .eof ∨ e = .tooLong → os e = plainText e) {i : Nat} {ls : List Bytes}
    {rs : List (Except Bytes Msg)} (ht : Tells i (shortLines ls) rs) (m0 : Msg) (ending : Option Err) {content : Bytes} (h : Lines content ls) :
    match (generalizing := false) rs with
    | [] => ∃ r m, readMsgLoop (readerAt content ending i) m0 = (r, m, some (finalErr ls ending)) ∧ r.err = some (finalErr ls ending) ∧
        readMsgLoopText os content ending = lastText os ls ending
    | .error x :: rs => ∃ rest m ls', readMsgLoop (readerAt content ending i) m0 = (readerAt rest ending i, m, some Err.badTrace) ∧
        Lines rest ls' ∧ Tells i (shortLines ls') rs ∧ finalErr ls' ending = finalErr ls ending ∧
        endText os ls' ending = endText os ls ending ∧ readMsgLoopText os content ending = x
    | .ok m :: rs => ∃ rest ls', readMsgLoop (readerAt content ending i) m0 = (readerAt rest ending (i + 1), m, none) ∧
        Lines rest ls' ∧ Tells (i + 1) (shortLines ls') rs ∧ finalErr ls' ending = finalErr ls ending ∧
        endText os ls' ending = endText os ls ending := by
  induction ls generalizing content with
  | nil =>
    cases ht
    rcases scanLine_lines h with ⟨_, h1⟩ | ⟨_, _, h1, _⟩
    · refine ⟨{ readerAt content ending i with err := some (ending.getD .eof) }, m0, ?_, ?_, ?_⟩
      · rw [readMsgLoop]
        split
        all_goals rename_i hs; rw [h1] at hs; cases hs
        rw [finalErr_nil]
      · rw [finalErr_nil]
      · rw [readMsgLoopText.eq_def]
        split
        all_goals rename_i hs; rw [h1] at hs; cases hs
        unfold lastText endText
        rw [if_neg (by simp)]
        cases ending with
        | none => exact plain_eof
        | some e =>
          by_cases he : e = .eof
          · simp [he, hos, plain_eof]
          · simp [he]
    · cases h1
  | cons l ls ih =>
    rcases scanLine_lines h with ⟨h1, _⟩ | ⟨l', ls', h1, h2⟩
    · cases h1
    · cases h1
      rcases h2 with ⟨hl, h2⟩ | ⟨hl, rest, h3, h2⟩
      · rw [shortLines_long hl] at ht
        cases ht
        refine ⟨{ readerAt content ending i with err := some .tooLong }, m0, ?_, ?_, ?_⟩
        · rw [readMsgLoop]
          split
          all_goals rename_i hs; rw [h2] at hs; cases hs
          rw [finalErr_long hl]
        · rw [finalErr_long hl]
        · rw [readMsgLoopText.eq_def]
          split
          all_goals rename_i hs; rw [h2] at hs; cases hs
          rw [lastText, endText_long hl, plain_tooLong]
          rfl
      · have step := readMsgLoop_token (r := readerAt content ending i) (m0 := m0) h2
        have tstep := readMsgLoopText_token (os := os) (ending := ending) h2
        rw [shortLines_cons hl] at ht
        rw [finalErr_cons hl]
        cases ht with
        | empty g1 g2 =>
          rw [textOf_unique (textOf_dropCR l) g1, if_pos List.length_nil] at step tstep
          rw [step, tstep, lastText, endText_cons hl]
          exact ih g2 h3
        | @msg _ _ _ _ t d data g1 g2 g3 =>
          have he : ¬ (dropCR l).length = 0 := by
            rw [textOf_unique (textOf_dropCR l) g1]
            intro h0
            rw [List.length_eq_zero_iff.1 h0] at g2
            exact not_loose_nil _ _ g2
          rw [if_neg he, textOf_unique (textOf_dropCR l) g1, (msgUnmarshal_iff m0 ⟨d, m0.ts, data⟩ t).2 ⟨g2, rfl⟩] at step
          refine ⟨rest, ls, ?_, h3, g3, rfl, (endText_cons hl _ _).symm⟩
          rw [step]
          simp [readerAt]
        | @bad _ _ _ _ t x g1 g2 g3 g4 g5 =>
          have he : ¬ (dropCR l).length = 0 := by
            rw [textOf_unique (textOf_dropCR l) g1]
            exact fun h0 => g2 (List.length_eq_zero_iff.1 h0)
          rw [if_neg he, textOf_unique (textOf_dropCR l) g1] at step tstep
          rcases hu : msgUnmarshal m0 t with ⟨m, _ | e⟩
          · exact absurd ((msgUnmarshal_iff m0 m t).1 hu).1 (g4 _ _)
          · rw [hu] at step
            obtain ⟨rfl, _⟩ := msgUnmarshal_err hu
            refine ⟨rest, m, ls, step, h3, g5, rfl, (endText_cons hl _ _).symm, ?_⟩
            rw [tstep, (C104_line t x).2 g3]
            rfl

/-- The error of reading a whole file, with its text. -/
theorem loadFault_tells {os : Err → Bytes} (hos : ∀ e, e = .eof ∨ e = .tooLong → os e = plainText e) {rs : List (Except Bytes Msg)}
    (ending : Option Err) {content : Bytes} {ls : List Bytes} (h : Lines content ls) (i : Nat) (ht : Tells i (shortLines ls) rs) :
    loadFault os (readerAt content ending i) =
      match firstError rs with
      | some x => .error ⟨Err.badTrace, x⟩
      | none =>
        match endText os ls ending with
        | some x => .error ⟨finalErr ls ending, x⟩
        | none => .ok ((rs.map erase).filterMap id) := by
  induction rs generalizing content ls i with
  | nil =>
    obtain ⟨r, m, h1, h2, h3⟩ := tells_step hos ht Msg.zero ending h
    have hf : readMsgFault os (readerAt content ending i) Msg.zero = some ⟨finalErr ls ending, lastText os ls ending⟩ := by
      rw [readMsgFault, readMsg]
      dsimp only
      rw [h1, h3]
      rfl
    rw [loadFault, hf]
    dsimp only
    have hn := endText_none (os := os) ls ending
    cases he : endText os ls ending with
    | none => rw [if_pos (hn.1 he)]; rfl
    | some x =>
      rw [if_neg (fun h0 => by rw [hn.2 h0] at he; cases he), lastText, he]
      rfl
  | cons y rs ih =>
    have step := tells_step hos ht Msg.zero ending h
    cases y with
    | error x =>
      obtain ⟨rest, m, ls', h1, h2, h3, h4, h5, h6⟩ := step
      have hf : readMsgFault os (readerAt content ending i) Msg.zero = some ⟨Err.badTrace, x⟩ := by
        rw [readMsgFault, readMsg]
        dsimp only
        rw [h1, h6]
        rfl
      rw [loadFault, hf]
      dsimp only
      rw [if_neg (by decide)]
      rfl
    | ok m =>
      obtain ⟨rest, ls', h1, h2, h3, h4, h5⟩ := step
      have hr : readMsg (readerAt content ending i) Msg.zero = (readerAt rest ending (i + 1), m, none) := by rw [readMsg]; exact h1
      have hf : readMsgFault os (readerAt content ending i) Msg.zero = none := by
        rw [readMsgFault, hr]
        rfl
      rw [loadFault, hf]
      dsimp only
      split
      · rename_i hs
        rw [hr] at hs
        cases hs
        rw [ih h2 (i + 1) h3, h4, h5]
        simp only [firstError]
        cases firstError rs with
        | some x => rfl
        | none =>
          cases endText os ls ending with
          | some x => rfl
          | none => rfl
      · rename_i hs
        rw [hr] at hs
        cases hs

/-- C104. The error a trace file is refused with: of its first bad line, or the one at its end. -/
theorem C104_load (os : Err → Bytes) (hos : ∀ e, e = .eof ∨ e = .tooLong → os e = plainText e) (content : Bytes) (ending : Option Err)
    {ls : List Bytes} {rs : List (Except Bytes Msg)} (h : Lines content ls) (ht : Tells 0 (shortLines ls) rs) (x : Bytes) :
    (∃ e, loadFault os (newReader content ending) = .error ⟨e, x⟩) ↔
      ((firstError rs).orElse fun _ => endText os ls ending) = some x := by
  change (∃ e, loadFault os (readerAt content ending 0) = .error ⟨e, x⟩) ↔ _
  rw [loadFault_tells hos ending h 0 ht]
  cases firstError rs with
  | some y => simp
  | none =>
    cases endText os ls ending with
    | some y => simp
    | none => simp

/-- C104. The text apart, files are loaded as before. -/
theorem C104_load_same (os : Err → Bytes) (content : Bytes) (ending : Option Err) :
    (match loadFault os (newReader content ending) with
      | .ok ms => .ok ms
      | .error f => .error f.err) = loadTrace (newReader content ending) := by
  generalize newReader content ending = r
  have key : ∀ (r : Reader), match readMsg r Msg.zero with
      | (r', m, none) => readMsgFault os r Msg.zero = none
      | (_, _, some e) => ∃ x, readMsgFault os r Msg.zero = some ⟨e, x⟩ := by
    intro r
    rcases h : readMsg r Msg.zero with ⟨r', m, _ | e⟩
    · simp only [readMsgFault, h, Option.map_none]
    · simp only [readMsgFault, h, Option.map_some]
      exact ⟨_, rfl⟩
  generalize hn : r.content.length = n
  induction n using Nat.strongRecOn generalizing r with
  | ind n ih =>
    have hk := key r
    cases he : r.err with
    | some e =>
      have hr : readMsg r Msg.zero = (r, Msg.zero, some e) := by rw [readMsg, he]
      rw [hr] at hk
      obtain ⟨x, hk⟩ := hk
      rw [loadFault, loadTrace, hk, he]
      dsimp only
      by_cases h : e = .eof
      · rw [if_pos h, if_pos h]
      · rw [if_neg h, if_neg h]
    | none =>
      have hr : readMsg r Msg.zero = readMsgLoop r Msg.zero := by rw [readMsg, he]
      rcases hs : readMsgLoop r Msg.zero with ⟨r', m, _ | e⟩
      · rw [hr, hs] at hk
        dsimp only at hk
        have e1 : loadTrace r = match loadTrace r' with
            | .ok ms => .ok (m :: ms)
            | .error e => .error e := by
          conv => lhs; rw [loadTrace, he]
          dsimp only
          split
          all_goals rename_i hs'; rw [hs] at hs'; cases hs'
          rfl
        have e2 : loadFault os r = match loadFault os r' with
            | .ok ms => .ok (m :: ms)
            | .error f => .error f := by
          conv => lhs; rw [loadFault, hk]
          dsimp only
          split
          all_goals rename_i hs'; rw [hr, hs] at hs'; cases hs'
          rfl
        rw [e1, e2, ← ih _ (hn ▸ readMsgLoop_lt hs) r' rfl]
        cases loadFault os r' <;> rfl
      · rw [hr, hs] at hk
        obtain ⟨x, hk⟩ := hk
        have e1 : loadTrace r = if e = .eof then .ok [] else .error e := by
          rw [loadTrace, he]
          dsimp only
          split
          all_goals rename_i hs'; rw [hs] at hs'; cases hs'
          rfl
        rw [loadFault, hk, e1]
        dsimp only
        by_cases h : e = .eof
        · rw [if_pos h, if_pos h]
        · rw [if_neg h, if_neg h]

/-- A file with a comment in its second line. -/
example : loadFault plainText (newReader (ascii "< 55 02\n# hello\n> 03 04\n") none) =
    .error ⟨Err.badTrace, ascii "trace dir unmarshal: unknown symbol '#'"⟩ := by decide +kernel

/-- A file that cannot be read to its end. -/
example : loadFault (fun e => if e = .other 5 then ascii "read t: input/output error" else plainText e)
    (newReader (ascii "< 55 02\n") (some (.other 5))) = .error ⟨.other 5, ascii "read t: input/output error"⟩ := by decide +kernel

theorem dirReadsT_final {os : Err → Bytes} (dir : Trace.Dir) (size k : Nat) (r : Reader) {e : Err} (h : r.err = some e) :
    dirReadsT os dir size k r = List.replicate k ⟨[], some ⟨e, keptText os e⟩⟩ := by
  induction k with
  | zero => rfl
  | succ k ih =>
    have hr : dirReaderRead dir size r = (r, ⟨[], some e⟩) := by rw [dirReaderRead, h]
    have hf : readMsgFault os r Msg.zero = some ⟨e, keptText os e⟩ := by rw [readMsgFault, readMsg, h]; rfl
    have ht : dirReaderText os dir r = keptText os e := by rw [dirReaderText, hf]
    rw [dirReadsT, hr, ht]
    dsimp only
    rw [ih]
    rfl

/-- C104. What a reader of one direction returns for any file, with what its errors say. -/
theorem C104_reads (os : Err → Bytes) (hos : ∀ e, e = .eof ∨ e = .tooLong → os e = plainText e) (content : Bytes) (ending : Option Err)
    (dir : Trace.Dir) (size : Nat) {ls : List Bytes} {rs : List (Except Bytes Msg)}
    (h : Lines content ls) (ht : Tells 0 (shortLines ls) rs) (k : Nat) :
    dirReadsT os dir size ((rs.filterMap (dirSays dir size)).length + k) (newReader content ending) =
      rs.filterMap (dirSays dir size) ++
        List.replicate k ⟨[], some ⟨finalErr ls ending, (endText os ls ending).getD (ascii "EOF")⟩⟩ := by
  suffices ∀ i, Tells i (shortLines ls) rs →
      (∀ k, dirReadsT os dir size ((rs.filterMap (dirSays dir size)).length + k) (readerAt content ending i) =
      rs.filterMap (dirSays dir size) ++ List.replicate k ⟨[], some ⟨finalErr ls ending, lastText os ls ending⟩⟩) from this 0 ht k
  clear ht
  induction rs generalizing content ls with
  | nil =>
    intro i ht k
    cases k with
    | zero => rfl
    | succ k =>
      obtain ⟨r, m, h1, h2, h3⟩ := tells_step hos ht Msg.zero ending h
      have hr : dirReaderRead dir size (readerAt content ending i) = (r, ⟨[], some (finalErr ls ending)⟩) := by
        rw [dirReaderRead]
        dsimp only
        split
        · rename_i hs; rw [h1] at hs; cases hs
        · rename_i hs; rw [h1] at hs; cases hs; rfl
      have hf : readMsgFault os (readerAt content ending i) Msg.zero = some ⟨finalErr ls ending, lastText os ls ending⟩ := by
        rw [readMsgFault, readMsg]
        dsimp only
        rw [h1, h3]
        rfl
      have hx : dirReaderText os dir (readerAt content ending i) = lastText os ls ending := by rw [dirReaderText, hf]
      simp only [List.filterMap_nil, List.length_nil, Nat.zero_add]
      rw [dirReadsT, hr, hx]
      dsimp only
      rw [dirReadsT_final dir size k r h2, kept_last hos]
      rfl
  | cons y rs ih =>
    intro i ht k
    have step := tells_step hos ht Msg.zero ending h
    cases y with
    | error x =>
      obtain ⟨rest, m, ls', h1, h2, h3, h4, h5, h6⟩ := step
      have hr : dirReaderRead dir size (readerAt content ending i) = (readerAt rest ending i, ⟨[], some Err.badTrace⟩) := by
        rw [dirReaderRead]
        dsimp only
        split
        · rename_i hs; rw [h1] at hs; cases hs
        · rename_i hs; rw [h1] at hs; cases hs; rfl
      have hf : readMsgFault os (readerAt content ending i) Msg.zero = some ⟨Err.badTrace, x⟩ := by
        rw [readMsgFault, readMsg]
        dsimp only
        rw [h1, h6]
        rfl
      have hx : dirReaderText os dir (readerAt content ending i) = x := by rw [dirReaderText, hf]
      rw [List.filterMap_cons_some (f := dirSays dir size) (b := (⟨[], some ⟨Err.badTrace, x⟩⟩ : ReadT)) rfl, List.length_cons,
        Nat.add_right_comm, dirReadsT, hr, hx]
      dsimp only
      rw [ih rest h2 i h3 k, h4, lastText, h5]
      rfl
    | ok m =>
      obtain ⟨rest, ls', h1, h2, h3, h4, h5⟩ := step
      have hrm : readMsg (readerAt content ending i) Msg.zero = (readerAt rest ending (i + 1), m, none) := by rw [readMsg]; exact h1
      have hf : readMsgFault os (readerAt content ending i) Msg.zero = none := by
        rw [readMsgFault, hrm]
        rfl
      by_cases hd : m.dir = dir
      · have hr : dirReaderRead dir size (readerAt content ending i) = (readerAt rest ending (i + 1), ⟨m.data.take size, none⟩) := by
          rw [dirReaderRead]
          dsimp only
          split
          · rename_i hs; rw [h1] at hs; cases hs; rw [if_neg (by simp [hd])]
          · rename_i hs; rw [h1] at hs; cases hs
        rw [List.filterMap_cons_some (b := (⟨m.data.take size, none⟩ : ReadT)) (by simp [dirSays, hd]), List.length_cons, Nat.add_right_comm,
          dirReadsT, hr]
        dsimp only
        rw [ih rest h2 (i + 1) h3 k, h4, lastText, h5]
        rfl
      · have hr : dirReaderRead dir size (readerAt content ending i) = dirReaderRead dir size (readerAt rest ending (i + 1)) := by
          conv => lhs; rw [dirReaderRead]
          dsimp only
          split
          · rename_i hs; rw [h1] at hs; cases hs; rw [if_pos hd]
          · rename_i hs; rw [h1] at hs; cases hs
        have hx : dirReaderText os dir (readerAt content ending i) = dirReaderText os dir (readerAt rest ending (i + 1)) := by
          conv => lhs; rw [dirReaderText, hf]
          dsimp only
          split
          · rename_i hs; rw [hrm] at hs; cases hs; rw [if_pos hd]
          · rename_i hs; rw [hrm] at hs; cases hs
        rw [List.filterMap_cons_none (by simp [dirSays, hd]), ← h4, lastText, ← h5]
        have := ih rest h2 (i + 1) h3 k
        rw [lastText] at this
        rw [← this]
        cases hk : (rs.filterMap (dirSays dir size)).length + k with
        | zero => rfl
        | succ n => rw [dirReadsT, dirReadsT, hr, hx]

/-- C104. The texts apart, the reader of one direction returns what it returned before. -/
theorem C104_reads_same (os : Err → Bytes) (dir : Trace.Dir) (size n : Nat) (r : Reader) :
    (dirReadsT os dir size n r).map ReadT.res = dirReads dir size n r := by
  induction n generalizing r with
  | zero => rfl
  | succ n ih =>
    rw [dirReadsT, dirReads, List.map_cons, ih]
    rcases h : dirReaderRead dir size r with ⟨r', d, e⟩
    cases e <;> rfl

example : dirReadsT plainText 0 10 4 (newReader (ascii "< 55 02\n> 03 04\n# hello\n< 05 06") none) =
    [⟨[0x55, 2], none⟩, ⟨[], some ⟨Err.badTrace, ascii "trace dir unmarshal: unknown symbol '#'"⟩⟩, ⟨[5, 6], none⟩,
     ⟨[], some ⟨.eof, ascii "EOF"⟩⟩] := by decide +kernel

end Props
