import Verif.Spec.Online
import Verif.Lemmas.Trace

namespace Ipod.Trace
open Go Spec

theorem takeWhile_self {l : Bytes} (h : (0x0A : UInt8) ∉ l) : l.takeWhile (· ≠ 0x0A) = l := by
  induction l with
  | nil => rfl
  | cons a l ih =>
    simp only [List.mem_cons, not_or] at h
    rw [List.takeWhile_cons_of_pos (by simpa using fun h' : a = 0x0A => h.1 h'.symm), ih h.2]

theorem not_mem_takeWhile (l : Bytes) : (0x0A : UInt8) ∉ l.takeWhile (· ≠ 0x0A) := by
  induction l with
  | nil => simp
  | cons a l ih =>
    by_cases h : a = 0x0A
    · rw [List.takeWhile_cons_of_neg (by simpa using h)]; simp
    · rw [List.takeWhile_cons_of_pos (by simpa using h)]
      simp only [List.mem_cons, not_or]
      exact ⟨fun h' => h h'.symm, ih⟩

theorem longLine_iff (c : Bytes) : LongLine c ↔ ∃ pre post, c = pre ++ post ∧ 65536 ≤ (post.takeWhile (· ≠ 0x0A)).length := by
  constructor
  · rintro ⟨pre, mid, post, h, h1, h2⟩
    refine ⟨pre, mid ++ post, by rw [h, List.append_assoc], ?_⟩
    rw [List.takeWhile_append, takeWhile_self h1, if_pos rfl, List.length_append]
    omega
  · rintro ⟨pre, post, h, h1⟩
    refine ⟨pre, post.takeWhile (· ≠ 0x0A), post.dropWhile (· ≠ 0x0A), ?_, not_mem_takeWhile post, h1⟩
    rw [List.append_assoc, List.takeWhile_append_dropWhile, h]

theorem longLine_nil : ¬ LongLine [] := by
  rintro ⟨pre, mid, post, h, _, h2⟩
  have := congrArg List.length h
  simp only [List.length_nil, List.length_append] at this
  omega

/-- The first line and the rest. -/
theorem split_line (c : Bytes) :
    let line := c.takeWhile (· ≠ 0x0A)
    c = line ∧ c.drop (line.length + 1) = [] ∨ c = line ++ 0x0A :: c.drop (line.length + 1) := by
  induction c with
  | nil => simp
  | cons a c ih =>
    by_cases h : a = 0x0A
    · right
      rw [List.takeWhile_cons_of_neg (by simpa using h)]
      simp [h]
    · rw [List.takeWhile_cons_of_pos (by simpa using h)]
      simp only at ih ⊢
      rcases ih with ⟨h1, h2⟩ | h1
      · left
        refine ⟨by rw [← h1], ?_⟩
        simpa using h2
      · right
        conv => lhs; rw [h1]
        rfl

theorem longLine_token {c text rest : Bytes} (h : scanLine c = .token text rest) : LongLine c ↔ LongLine rest := by
  unfold scanLine at h
  split at h
  · cases h
  simp only at h
  split at h
  · cases h
  rename_i hlen
  cases h
  have hs := split_line c
  simp only at hs
  generalize hl : c.takeWhile (· ≠ 0x0A) = line at *
  have hnl : (0x0A : UInt8) ∉ line := hl ▸ not_mem_takeWhile c
  rcases hs with ⟨h1, h2⟩ | h1
  · rw [h2]
    constructor
    · rintro ⟨pre, mid, post, h, _, h3⟩
      have := congrArg List.length h
      simp only [List.length_append] at this
      rw [h1] at this
      simp only [maxScanTokenSize] at hlen
      omega
    · exact fun h => absurd h longLine_nil
  · generalize c.drop (line.length + 1) = rest at *
    rw [longLine_iff, longLine_iff]
    constructor
    · rintro ⟨pre, post, h, h3⟩
      rw [h1] at h
      rcases List.append_eq_append_iff.1 h with ⟨a, h4, h5⟩ | ⟨a, h4, h5⟩
      · cases a with
        | nil =>
          simp only [List.nil_append] at h5
          rw [← h5] at h3
          simp at h3
        | cons b a =>
          simp only [List.cons_append, List.cons.injEq] at h5
          exact ⟨a, post, h5.2, h3⟩
      · have ha : (0x0A : UInt8) ∉ a := fun h => hnl (by rw [h4]; simp [h])
        rw [h5, List.takeWhile_append, takeWhile_self ha, if_pos rfl,
          List.takeWhile_cons_of_neg (by simp), List.append_nil] at h3
        have := congrArg List.length h4
        simp only [List.length_append] at this
        simp only [maxScanTokenSize] at hlen
        omega
    · rintro ⟨pre, post, h, h3⟩
      exact ⟨line ++ 0x0A :: pre, post, by rw [h1, h]; simp, h3⟩

theorem longLine_tooLong {c : Bytes} (h : scanLine c = .tooLong) : LongLine c := by
  unfold scanLine at h
  split at h
  · cases h
  simp only at h
  split at h
  · rename_i hlen
    rw [longLine_iff]
    exact ⟨[], c, rfl, hlen⟩
  · cases h

theorem scanLine_done {c : Bytes} (h : scanLine c = .done) : c = [] := by
  unfold scanLine at h
  split at h
  · assumption
  simp only at h
  split at h <;> cases h

theorem msgUnmarshal_error {m m' : Msg} {text : Bytes} {e : Err} (h : msgUnmarshal m text = (m', some e)) : e = Err.badTrace := by
  unfold msgUnmarshal dirUnmarshal at h
  grind

/-- Where a call of `ReadMsg` leaves the reader. -/
def Goes (r r' : Reader) : Prop :=
  r'.err = none ∧ r'.ending = r.ending ∧ r'.content.length < r.content.length ∧ (LongLine r'.content ↔ LongLine r.content)

theorem readMsgLoop_spec (r : Reader) (m : Msg) (hr : r.err = none) :
    match readMsgLoop r m with
    | (r', _, none) => Goes r r'
    | (r', _, some e) => (Goes r r' ∧ e = Err.badTrace) ∨ (r'.err = some e ∧ LastError r.content r.ending e) := by
  fun_induction readMsgLoop r m with
  | case1 r text rest hs h0 ih =>
    have h1 := scanLine_lt hs
    have h2 := longLine_token hs
    specialize ih hr
    generalize readMsgLoop _ _ = x at ih ⊢
    obtain ⟨r', m', e⟩ := x
    have lift : Goes { r with content := rest } r' → Goes r r' := by
      rintro ⟨a, b, c, d⟩
      exact ⟨a, b, by simp only at c; omega, d.trans h2.symm⟩
    cases e with
    | none => exact lift ih
    | some e =>
      rcases ih with ⟨a, b⟩ | ⟨a, b⟩
      · exact .inl ⟨lift a, b⟩
      · refine .inr ⟨a, ?_⟩
        unfold LastError at b ⊢
        rw [h2]; exact b
  | case2 r text rest hs h0 r1 m1 e hm =>
    exact .inl ⟨⟨hr, rfl, scanLine_lt hs, (longLine_token hs).symm⟩, msgUnmarshal_error hm⟩
  | case3 r text rest hs h0 r1 m1 hm => exact ⟨hr, rfl, scanLine_lt hs, (longLine_token hs).symm⟩
  | case4 r hs => exact .inr ⟨rfl, .inl ⟨longLine_tooLong hs, rfl⟩⟩
  | case5 r hs =>
    refine .inr ⟨rfl, .inr ⟨?_, rfl⟩⟩
    rw [scanLine_done hs]; exact longLine_nil

theorem dirReaderRead_spec (dir : Dir) (n : Nat) (r : Reader) (hr : r.err = none) :
    (Goes r (dirReaderRead dir n r).1 ∧ ((dirReaderRead dir n r).2.err = none ∨ (dirReaderRead dir n r).2.err = some Err.badTrace)) ∨
    ∃ e, (dirReaderRead dir n r).1.err = some e ∧ (dirReaderRead dir n r).2 = ⟨[], some e⟩ ∧ LastError r.content r.ending e := by
  fun_induction dirReaderRead dir n r with
  | case1 r e h => rw [hr] at h; cases h
  | case2 r _ r' m h hd ih =>
    have h1 := readMsgLoop_spec r Msg.zero hr
    rw [h] at h1
    obtain ⟨a, b, c, d⟩ := h1
    rcases ih a with ⟨⟨a', b', c', d'⟩, h2⟩ | ⟨e, h2, h3, h4⟩
    · exact .inl ⟨⟨a', b'.trans b, by omega, d'.trans d⟩, h2⟩
    · refine .inr ⟨e, h2, h3, ?_⟩
      unfold LastError at h4 ⊢
      rw [← d, ← b]; exact h4
  | case3 r _ r' m h hd =>
    have h1 := readMsgLoop_spec r Msg.zero hr
    rw [h] at h1
    exact .inl ⟨h1, .inl rfl⟩
  | case4 r _ r' m e h =>
    have h1 := readMsgLoop_spec r Msg.zero hr
    rw [h] at h1
    rcases h1 with ⟨h1, rfl⟩ | ⟨h1, h2⟩
    · exact .inl ⟨h1, .inr rfl⟩
    · exact .inr ⟨e, h1, rfl, h2⟩

end Ipod.Trace
