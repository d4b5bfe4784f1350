import Verif.Spec.Playback
import Verif.Lemmas.Gadget
import Verif.Props.TraceFile
import Verif.Props.View

/-! Lemmas about the trace file as a function of its text (C113, C114). -/

namespace Ipod
open Go Spec Hid Trace Props

/-! ### the text -/

theorem fileLines_lines (content : Bytes) : Lines content (fileLines content) := by
  induction content with
  | nil => exact .none
  | cons c r ih =>
    rw [fileLines]
    by_cases hc : c = 0x0A
    · rw [if_pos hc, hc]
      exact .line (l := []) (by simp) ih
    · rw [if_neg hc]
      revert ih
      cases fileLines r with
      | nil =>
        intro ih
        cases ih
        exact .last (by simp) (by simpa using Ne.symm hc)
      | cons l ls =>
        intro ih
        cases ih with
        | last h1 h2 => exact .last (by simp) (by simp [Ne.symm hc, h2])
        | line h1 h2 => exact .line (l := c :: l) (by simp [Ne.symm hc, h1]) h2

theorem lineText_dropCR (l : Bytes) : lineText l = dropCR l := rfl

theorem hexValue_iff (c : UInt8) (v : Nat) : hexValue c = some v ↔ IsHex c v := by
  unfold hexValue IsHex
  constructor
  · intro h
    split at h
    · cases h; omega
    · split at h
      · cases h; omega
      · split at h
        · cases h; omega
        · cases h
  · rintro (⟨h1, h2, rfl⟩ | ⟨h1, h2, rfl⟩ | ⟨h1, h2, rfl⟩)
    · rw [if_pos ⟨h1, h2⟩]
    · rw [if_neg (by omega), if_pos ⟨h1, h2⟩]
    · rw [if_neg (by omega), if_neg (by omega), if_pos ⟨h1, h2⟩]

theorem hexValue_none (c : UInt8) : hexValue c = none ↔ ∀ v, ¬ IsHex c v := by
  constructor
  · intro h v hv
    rw [(hexValue_iff c v).2 hv] at h; cases h
  · intro h
    cases hc : hexValue c with
    | none => rfl
    | some v => exact absurd ((hexValue_iff c v).1 hc) (h v)

theorem leadingBytes_iff (s data : Bytes) : leadingBytes s = some data ↔ ∃ digits tail, s = digits ++ tail ∧ HexText digits data ∧
    ∀ t ∈ tail.head?, ∀ v, ¬ IsHex t v := by
  constructor
  · intro h
    fun_induction leadingBytes s generalizing data with
    | case1 => cases h; exact ⟨[], [], rfl, .nil, by simp⟩
    | case2 a r ha =>
      cases h
      refine ⟨[], a :: r, rfl, .nil, ?_⟩
      simpa using (hexValue_none a).1 ha
    | case3 => cases h
    | case4 => cases h
    | case5 a x ha b r y hb ih =>
      rw [Option.map_eq_some_iff] at h
      obtain ⟨d, h1, rfl⟩ := h
      obtain ⟨digits, tail, h2, h3, h4⟩ := ih d h1
      exact ⟨a :: b :: digits, tail, by rw [h2]; rfl, .cons ((hexValue_iff _ _).1 ha) ((hexValue_iff _ _).1 hb) h3, h4⟩
  · rintro ⟨digits, tail, rfl, h, ht⟩
    induction h with
    | nil =>
      cases tail with
      | nil => rfl
      | cons t tail =>
        have : hexValue t = none := (hexValue_none t).2 (ht t rfl)
        simp [leadingBytes, this]
    | cons ha hb _ ih =>
      simp only [List.cons_append]
      rw [leadingBytes]
      simp only [(hexValue_iff _ _).2 ha, (hexValue_iff _ _).2 hb, ih, Option.map_some]

/-- No white space is the beginning of another. -/
theorem white_prefix : ∀ w ∈ whiteSpaces, ∀ w' ∈ whiteSpaces, ∀ r : Bytes, w'.isPrefixOf (w ++ r) = true → w' = w := by
  have h : ∀ w ∈ whiteSpaces, ∀ w' ∈ whiteSpaces, w' = w ∨ ∃ i, i < w.length ∧ i < w'.length ∧ w[i]? ≠ w'[i]? := by decide +kernel
  intro w hw w' hw' r hp
  rcases h w hw w' hw' with h | ⟨i, h1, h2, h3⟩
  · exact h
  · exfalso
    obtain ⟨t, ht⟩ := List.isPrefixOf_iff_prefix.1 hp
    apply h3
    have e1 : (w' ++ t)[i]? = w'[i]? := List.getElem?_append_left h2
    have e2 : (w ++ r)[i]? = w[i]? := List.getElem?_append_left h1
    rw [← e1, ← e2, ht]

theorem trimWhite_cons {w : Bytes} (hw : w ∈ whiteSpaces) (r : Bytes) : trimWhite (w ++ r) = trimWhite r := by
  rw [trimWhite]
  split
  · rename_i w' h
    have := white_prefix w hw w' (List.mem_of_find?_eq_some h) r (List.find?_some (p := fun x => List.isPrefixOf x (w ++ r)) h)
    subst this
    rw [List.drop_left]
  · rename_i h
    exact absurd (List.isPrefixOf_iff_prefix.2 (List.prefix_append w r)) (List.find?_eq_none.1 h w hw)

theorem trimWhite_split (s : Bytes) : ∃ ws : List Bytes, (∀ w ∈ ws, w ∈ whiteSpaces) ∧ s = ws.flatten ++ trimWhite s := by
  fun_induction trimWhite s with
  | case1 s w h ih =>
    obtain ⟨ws, h1, h2⟩ := ih
    obtain ⟨t, ht⟩ := List.isPrefixOf_iff_prefix.1 (List.find?_some (p := fun x => List.isPrefixOf x s) h)
    refine ⟨w :: ws, ?_, ?_⟩
    · intro x hx
      rcases List.mem_cons.1 hx with rfl | hx
      · exact List.mem_of_find?_eq_some h
      · exact h1 x hx
    · rw [List.flatten_cons, List.append_assoc, ← h2, ← ht, List.drop_left]
  | case2 s h => exact ⟨[], by simp, rfl⟩

theorem trimWhite_digit {c : UInt8} {v : Nat} (h : IsHex c v) (r : Bytes) : trimWhite (c :: r) = c :: r := by
  rw [trimWhite]
  split
  · rename_i w hf
    exfalso
    have hh : ∀ w ∈ whiteSpaces, ∃ a ∈ w.head?, a.toNat < 48 ∨ 103 ≤ a.toNat := by decide +kernel
    obtain ⟨a, ha, hlt⟩ := hh w (List.mem_of_find?_eq_some hf)
    obtain ⟨t, ht⟩ := List.isPrefixOf_iff_prefix.1 (List.find?_some (p := fun x => List.isPrefixOf x (c :: r)) hf)
    cases w with
    | nil => cases ha
    | cons b w =>
      simp only [List.head?_cons, Option.mem_some_iff] at ha
      simp only [List.cons_append, List.cons.injEq] at ht
      rw [← ha, ht.1] at hlt
      unfold IsHex at h
      omega
  · rfl

/-- The code's idea of a line is the one of C40. -/
theorem lineMessage_iff (t : Bytes) (d : Bool) (data : Bytes) :
    lineMessage t = some (d, data) ↔ LooseLine t (if d then 1 else 0) data := by
  have hsign : ∀ sign : UInt8, signOf (if d then 1 else 0) = some sign ↔ sign = if d then 0x3E else 0x3C := by
    intro sign
    cases d <;> simp [signOf, eq_comm]
  have key : ∀ rest : Bytes, ∀ data, data ≠ [] → (leadingBytes (trimWhite (rest.filter (· ≠ 0x20))) = some data ↔
      ∃ (ws : List Bytes) (digits tail : Bytes), rest.filter (· ≠ 0x20) = ws.flatten ++ digits ++ tail ∧ (∀ w ∈ ws, w ∈ whiteSpaces) ∧
        HexText digits data ∧ ∀ t ∈ tail.head?, ∀ v, ¬ IsHex t v) := by
    intro rest data hne
    rw [leadingBytes_iff]
    constructor
    · rintro ⟨digits, tail, h1, h2, h3⟩
      obtain ⟨ws, h4, h5⟩ := trimWhite_split (rest.filter (· ≠ 0x20))
      exact ⟨ws, digits, tail, by rw [List.append_assoc, ← h1]; exact h5, h4, h2, h3⟩
    · rintro ⟨ws, digits, tail, h1, h2, h3, h4⟩
      refine ⟨digits, tail, ?_, h3, h4⟩
      rw [h1]
      clear h1
      induction ws with
      | nil =>
        cases h3 with
        | nil => exact absurd rfl hne
        | cons ha hb hr => exact trimWhite_digit ha _
      | cons w ws ih =>
        rw [List.flatten_cons, List.append_assoc, List.append_assoc, trimWhite_cons (h2 w (by simp)), ← List.append_assoc]
        exact ih fun w hw => h2 w (by simp [hw])
  constructor
  · intro h
    match t, h with
    | sign :: c :: rest, h =>
      rw [lineMessage] at h
      split at h
      · cases h
      · rename_i hl
        split at h
        · rename_i b bs hb
          have hd : sign = (if d then 0x3E else 0x3C) ∧ b :: bs = data := by
            split at h
            · simp only [Option.some.injEq, Prod.mk.injEq] at h
              obtain ⟨rfl, rfl⟩ := h
              exact ⟨by assumption, rfl⟩
            · split at h
              · simp only [Option.some.injEq, Prod.mk.injEq] at h
                obtain ⟨rfl, rfl⟩ := h
                exact ⟨by assumption, rfl⟩
              · cases h
          obtain ⟨h1, rfl⟩ := hd
          obtain ⟨ws, digits, tail, h2, h3, h4, h5⟩ := (key rest (b :: bs) (by simp)).1 hb
          exact ⟨sign, c, rest, ws, digits, tail, rfl, by omega, (hsign sign).2 h1, h2, h3, h4, by simp, h5⟩
        · cases h
  · rintro ⟨sign, c, rest, ws, digits, tail, rfl, hl, hs, h1, h2, h3, hne, h4⟩
    have hb := (key rest data hne).2 ⟨ws, digits, tail, h1, h2, h3, h4⟩
    rw [lineMessage, if_neg (by omega), hb]
    rw [hsign] at hs
    cases data with
    | nil => exact absurd rfl hne
    | cons b bs =>
      subst hs
      cases d <;> simp

theorem lineMessage_none (t : Bytes) : lineMessage t = none ↔ ∀ d data, ¬ LooseLine t d data := by
  constructor
  · rintro h d data hl
    have hd : d = 0 ∨ d = 1 := by
      obtain ⟨sign, _, _, _, _, _, _, _, hs, _⟩ := hl
      unfold signOf at hs
      split at hs
      · left; assumption
      · split at hs
        · right; assumption
        · cases hs
    rcases hd with rfl | rfl
    · rw [(lineMessage_iff t false data).2 hl] at h; cases h
    · rw [(lineMessage_iff t true data).2 hl] at h; cases h
  · intro h
    cases hm : lineMessage t with
    | none => rfl
    | some x => exact absurd ((lineMessage_iff t x.1 x.2).1 hm) (h _ _)

/-- The direction as the code writes it. -/
def dirOf (d : Bool) : Trace.Dir := if d then 1 else 0

/-- A message with its number. -/
def toldOf (rs : List (Option (Bool × Bytes))) (ms : List (Option Msg)) : Prop :=
  ms.map (Option.map fun m => (m.dir, m.data)) = rs.map (Option.map fun x => (dirOf x.1, x.2))

theorem told_messages (i : Nat) (ls : List Bytes) : ∃ ms, Told i ls ms ∧
    toldOf ((ls.map lineText).filterMap fun t => if t = [] then none else some (lineMessage t)) ms := by
  induction ls generalizing i with
  | nil => exact ⟨[], .nil, rfl⟩
  | cons l ls ih =>
    by_cases h0 : lineText l = []
    · obtain ⟨ms, h1, h2⟩ := ih i
      refine ⟨ms, .empty ?_ h1, ?_⟩
      · rw [← h0]; exact textOf_dropCR l
      · rw [List.map_cons, List.filterMap_cons_none (by rw [if_pos h0])]
        exact h2
    · rw [List.map_cons, List.filterMap_cons_some (b := lineMessage (lineText l)) (by rw [if_neg h0])]
      cases hm : lineMessage (lineText l) with
      | none =>
        obtain ⟨ms, h1, h2⟩ := ih i
        refine ⟨none :: ms, .bad (textOf_dropCR l) h0 ((lineMessage_none _).1 hm) h1, ?_⟩
        unfold toldOf at h2 ⊢
        simp [h2]
      | some x =>
        obtain ⟨ms, h1, h2⟩ := ih (i + 1)
        refine ⟨some ⟨dirOf x.1, UInt64.ofNat i, x.2⟩ :: ms, .msg (textOf_dropCR l) ((lineMessage_iff _ _ _).1 hm) h1, ?_⟩
        unfold toldOf at h2 ⊢
        simp [h2]

theorem file_told (content : Bytes) : ∃ ms, Told 0 (shortLines (fileLines content)) ms ∧ toldOf (fileMessages content) ms :=
  told_messages 0 _

theorem fileEnd_final (content : Bytes) (ending : Option Err) : fileEnd content ending = finalErr (fileLines content) ending := by
  unfold fileEnd finalErr
  by_cases h : ∃ l ∈ fileLines content, 65536 ≤ l.length
  · rw [if_pos h, if_neg]
    obtain ⟨l, h1, h2⟩ := h
    intro ha
    have := List.all_eq_true.1 ha l h1
    simp at this; omega
  · rw [if_neg h, if_pos]
    rw [List.all_eq_true]
    intro l hl
    have : ¬ 65536 ≤ l.length := fun hh => h ⟨l, hl, hh⟩
    simp; omega

theorem toldOf_reads {rs : List (Option (Bool × Bytes))} {ms : List (Option Msg)} (h : toldOf rs ms) :
    ms.filterMap (dirRes dirIn 1024) = rs.filterMap fun m : Option (Bool × Bytes) => match m with
      | some (false, d) => some { data := d.take 1024, err := none }
      | some (true, _) => none
      | none => some { data := [], err := some Err.badTrace } := by
  unfold toldOf at h
  induction rs generalizing ms with
  | nil =>
    cases ms with
    | nil => rfl
    | cons m ms => simp at h
  | cons r rs ih =>
    cases ms with
    | nil => simp at h
    | cons m ms =>
      simp only [List.map_cons, List.cons.injEq] at h
      have ih := ih h.2
      match r, m, h.1 with
      | none, none, _ =>
        rw [List.filterMap_cons_some (show dirRes dirIn 1024 none = some ⟨[], some Err.badTrace⟩ from rfl), ih]
        rfl
      | some (d, b), some m, h1 =>
        simp only [Option.map_some, Option.some.injEq, Prod.mk.injEq] at h1
        cases d with
        | false =>
          rw [List.filterMap_cons_some (b := ⟨b.take 1024, none⟩) (by
            rw [dirRes, if_pos (by rw [h1.1]; rfl), h1.2]), ih]
          rfl
        | true =>
          rw [List.filterMap_cons_none (by rw [dirRes, if_neg (by rw [h1.1]; decide)]), ih]
          rfl
      | none, some m, h1 => cases h1
      | some _, none, h1 => cases h1

theorem file_reads (content : Bytes) (ending : Option Err) (n : Nat) :
    dirReads dirIn 1024 n (newReader content ending) = fileReadsN content ending n := by
  obtain ⟨ms, h1, h2⟩ := file_told content
  have h := C89_direction content ending dirIn 1024 (fileLines_lines content) h1 n
  rw [toldOf_reads h2, ← fileEnd_final] at h
  change dirReads dirIn 1024 ((fileReads content).length + n) _ = fileReads content ++ _ at h
  unfold fileReadsN
  rw [← h]
  have htake : ∀ (n k : Nat) (r : Reader), (dirReads dirIn 1024 (n + k) r).take n = dirReads dirIn 1024 n r := by
    intro n k
    induction n with
    | zero => intro r; simp [dirReads]
    | succ n ih => intro r; rw [Nat.add_right_comm, dirReads, dirReads, List.take_succ_cons, ih]
  rw [Nat.add_comm, htake]

/-! ### replay -/

theorem run_plays (legacy : Bool) (clock : Clock) (grow : Growth) (reads : List ReadRes) : ∀ (l : Live DevGeneral),
    (match ((gadgetOf l).plays legacy clock reads).1 with
      | .waits => ∃ l', Live.run devGeneral clock grow (Cli.table legacy) reads l = .ret (l', true) ∧
          l'.written = l.written ++ ((gadgetOf l).plays legacy clock reads).2
      | .ended => ∃ l', Live.run devGeneral clock grow (Cli.table legacy) reads l = .ret (l', false) ∧
          l'.written = l.written ++ ((gadgetOf l).plays legacy clock reads).2
      | .died => Live.run devGeneral clock grow (Cli.table legacy) reads l = .panic) ∨
    (Live.run devGeneral clock grow (Cli.table legacy) reads l = .panic ∧
      ∃ pre r post, reads = pre ++ r :: post ∧ Tempted legacy clock (gadgetOf l) pre r) := by
  induction reads with
  | nil => intro l; exact .inl ⟨l, rfl, by simp [Gadget.plays]⟩
  | cons r reads ih =>
    intro l
    rw [Live.run]
    rcases read_turn legacy clock grow l r with ⟨h1, frame, h2, h3⟩ | h
    · simp only [h1]
      exact .inr ⟨rfl, [], r, reads, rfl, _, frame, rfl, h2, h3⟩
    · cases hr : (gadgetOf l).reads legacy clock r with
      | ends =>
        rw [hr] at h
        simp only [h, Gadget.plays, hr]
        exact .inl ⟨l, rfl, by simp⟩
      | dies =>
        rw [hr] at h
        simp only [h, Gadget.plays, hr]
        exact .inl rfl
      | goes g' frames =>
        rw [hr] at h
        obtain ⟨l', h1, h2, h3⟩ := h
        have ih := ih l'
        simp only [h1, Out.bind_ret, Gadget.plays, hr]
        rw [h2] at ih
        rcases ih with ih | ⟨ih, pre, r', post, rfl, ht⟩
        · refine .inl ?_
          cases hd : (g'.plays legacy clock reads).1 with
          | waits =>
            rw [hd] at ih
            obtain ⟨l'', h4, h5⟩ := ih
            exact ⟨l'', h4, by rw [h5, h3, List.append_assoc]⟩
          | ended =>
            rw [hd] at ih
            obtain ⟨l'', h4, h5⟩ := ih
            exact ⟨l'', h4, by rw [h5, h3, List.append_assoc]⟩
          | died => rw [hd] at ih; exact ih
        · refine .inr ⟨ih, r :: pre, r', post, rfl, ?_⟩
          obtain ⟨g'', frame, a1, a2, a3⟩ := ht
          exact ⟨g'', frame, by simp only [Gadget.after, hr]; exact a1, a2, a3⟩

/-! ### view -/

theorem seen_take (legacy : Bool) (b : Bytes) : seen legacy ⟨b.take 1024, none⟩ = seen legacy ⟨b, none⟩ := by
  simp only [seen, List.take_take, Nat.min_self]

theorem firstFrame_reads (legacy : Bool) (grow : Growth) (bs : List Bytes) : ∀ buf : Slice,
    match firstFrame legacy buf.data bs with
    | none => ∃ b', readFrameLoop grow (Cli.table legacy) (bs.map rawOf) buf = .ret ([], b', .error .eof)
    | some (n, x) => 1 ≤ n ∧ n ≤ bs.length ∧ ∃ b' y, readFrameLoop grow (Cli.table legacy) (bs.map rawOf) buf =
        .ret ((bs.drop n).map rawOf, b', y) ∧ plain y = x ∧ y ≠ .error .eof := by
  induction bs with
  | nil => intro buf; exact ⟨buf, rfl⟩
  | cons b bs ih =>
    intro buf
    have hr := raw_seen legacy ⟨b.take 1024, none⟩
    rw [seen_take] at hr
    change match seen legacy ⟨b, none⟩ with
      | .eof => rawOf b = .error .eof
      | .nothing => (∃ e, e ≠ .eof ∧ rawOf b = .error e) ∨
          ∃ rep, rawOf b = .ok rep ∧ find (Cli.table legacy) rep.id.toNat = none
      | .report lc d => ∃ rep rd, rawOf b = .ok rep ∧ find (Cli.table legacy) rep.id.toNat = some rd ∧
          ¬ rd.maxPayload < 0 ∧ rep.linkControl = lc ∧ rep.data.take (min rep.data.length rd.maxPayload.toNat) = d at hr
    rw [firstFrame, List.map_cons]
    have hne : seen legacy ⟨b, none⟩ ≠ .eof := by
      unfold seen
      simp only
      split
      · split <;> simp
      · simp
    have hlen : ∀ e, rawOf b = .error e → e = .noProgress ∧ (b.take 1024).length < 3 := by
      intro e he
      rw [rawOf_eq] at he
      unfold reportOf at he
      split at he
      · cases he
      · rename_i hn
        split at hn
        · cases hn
        · rename_i hm
          cases he
          refine ⟨rfl, ?_⟩
          generalize b.take 1024 = t at hm
          match t, hm with
          | [], _ => decide
          | [_], _ => simp
          | [_, _], _ => simp
          | x :: y :: z :: t, hm => exact absurd rfl (hm x y z t)
    have hlong : ∀ rep, rawOf b = .ok rep → ¬ (b.take 1024).length < 3 := by
      intro rep he
      rw [rawOf_ok] at he
      unfold reportOf at he
      split at he
      · rename_i h; rw [h]; simp
      · cases he
    match hs : seen legacy ⟨b, none⟩ with
    | .eof => exact absurd hs hne
    | .nothing =>
      rw [hs] at hr
      simp only
      refine ⟨Nat.le_refl _, by simp, ?_⟩
      rcases hr with ⟨e, _, he⟩ | ⟨rep, he, hf⟩
      · obtain ⟨rfl, hl⟩ := hlen e he
        exact ⟨buf, .error .noProgress, by rw [he]; rfl, by rw [if_pos hl]; rfl, by decide⟩
      · refine ⟨buf, .error Err.noReport, ?_, by rw [if_neg (hlong rep he)]; rfl, by decide⟩
        rw [he]
        simp only [readFrameLoop, hf]
        rfl
    | .report lc d =>
      rw [hs] at hr
      obtain ⟨rep, rd, h1, h2, h3, h4, h5⟩ := hr
      rw [h1]
      simp only [readFrameLoop, h2, if_neg h3, h4, h5]
      by_cases hl0 : lc = 0x00
      · subst hl0
        simp only [if_true]
        exact ⟨Nat.le_refl _, by simp, _, _, rfl, by simp [plain], by simp⟩
      · simp only [if_neg hl0, show ¬ lc = linkControlDone from hl0]
        by_cases hl1 : lc = 0x01
        · subst hl1
          simp only [if_true]
          exact ⟨Nat.le_refl _, by simp, _, _, rfl, by simp [plain], by simp⟩
        · simp only [if_neg hl1, show ¬ lc = linkControlContinue from hl1]
          have step : ∀ (part : Bytes) (buf' : Slice) (o : Out (List (Except Err Report) × Slice × Except Err Slice)),
              buf'.data = part → o = readFrameLoop grow (Cli.table legacy) (bs.map rawOf) buf' →
              match (firstFrame legacy part bs).map fun x => (x.1 + 1, x.2) with
              | none => ∃ b', o = .ret ([], b', .error .eof)
              | some (n, x) => 1 ≤ n ∧ n ≤ (b :: bs).length ∧ ∃ b' y, o = .ret (((b :: bs).drop n).map rawOf, b', y) ∧
                  plain y = x ∧ y ≠ .error .eof := by
            rintro part buf' o rfl rfl
            have := ih buf'
            match hf : firstFrame legacy buf'.data bs with
            | none => rw [hf] at this; exact this
            | some (n, x) =>
              rw [hf] at this
              obtain ⟨g1, g2, b', y, g3, g4, g5⟩ := this
              exact ⟨by omega, by simp; omega, b', y, by rw [g3]; rfl, g4, g5⟩
          by_cases hl2 : lc = 0x02
          · subst hl2
            simp only [if_true]
            exact step d _ _ (by simp) rfl
          · simp only [if_neg hl2, show ¬ lc = linkControlMoreToFollow from hl2]
            by_cases hl3 : lc = 0x03
            · subst hl3
              simp only [if_true]
              exact step _ (buf.write grow d) _ (by simp) (by rw [if_neg (by decide), if_neg (by decide), if_pos (by decide)])
            · simp only [if_neg hl3]
              exact step _ buf _ rfl (by
                rw [if_neg (by simp), if_neg (show ¬ lc = linkControlContinue ||| linkControlMoreToFollow from fun h => hl3 h), if_neg (by simp)]
                try rw [if_neg (by simp)])

theorem firstFrame_call (legacy : Bool) (bs : List Bytes) :
    match firstFrame legacy [] bs with
    | none => Unfinished (Cli.table legacy) bs
    | some (n, x) => 1 ≤ n ∧ n ≤ bs.length ∧ OneCall (Cli.table legacy) (bs.take n) x := by
  have h := firstFrame_reads legacy (fun _ n => n) bs ⟨[], []⟩
  have hc := fun rest b' x => readFrame_calls (grow := fun _ n => n) (defs := Cli.table legacy) bs 0 ⟨[], []⟩ (rest := rest) (b' := b') (x := x)
  simp only [List.replicate_zero, List.append_nil, readFrame] at hc
  match hf : firstFrame legacy [] bs with
  | none =>
    simp only [hf] at h
    obtain ⟨b', h⟩ := h
    rcases hc _ _ _ h with h1 | h1
    · exact h1.2
    · exact absurd rfl h1.1
  | some (n, x) =>
    simp only [hf] at h
    obtain ⟨h1, h2, b', y, h3, rfl, h5⟩ := h
    refine ⟨h1, h2, ?_⟩
    rcases hc _ _ _ h3 with h6 | ⟨_, used, bs', h6, h7, h8⟩
    · exact absurd h6.1 h5
    · have hl : (bs.drop n).length = bs'.length := by simpa using congrArg List.length h7
      have hu : used = bs.take n := by
        rw [h6, List.take_append_of_le_length, List.take_of_length_le]
        all_goals
          rw [List.length_drop, h6, List.length_append] at hl
          rw [h6, List.length_append] at h2
          omega
      rw [← hu]; exact h8

/-- Messages, as the specification has them. -/
def bare (m : Msg) : Bool × Bytes := (decide (m.dir = 1), m.data)

theorem bare_dir {m : Msg} (h : m.dir = 0 ∨ m.dir = 1) : dirOf (bare m).1 = m.dir := by
  rcases h with h | h <;> simp [dirOf, bare, h]

theorem ofDir_bare (ms : List Msg) (h : ∀ m ∈ ms, m.dir = 0 ∨ m.dir = 1) (d : Bool) :
    ((ms.map bare).filter (·.1 = d)).map (·.2) = ofDir (dirOf d) ms := by
  induction ms with
  | nil => rfl
  | cons m ms ih =>
    have ih := ih fun x hx => h x (by simp [hx])
    unfold ofDir at ih ⊢
    have hm : (bare m).1 = d ↔ m.dir = dirOf d := by
      rcases h m (by simp) with h | h <;> cases d <;> simp [bare, dirOf, h]
    rw [List.map_cons, List.filter_cons, List.filter_cons]
    by_cases hd : (bare m).1 = d
    · rw [if_pos (by simpa using hd), if_pos (by simpa using hm.1 hd), List.map_cons, List.map_cons, ih]; rfl
    · rw [if_neg (by simpa using hd), if_neg (by simpa using fun x => hd (hm.2 x)), ih]

theorem taken_without (ms : List Msg) (h : ∀ m ∈ ms, m.dir = 0 ∨ m.dir = 1) (d : Bool) : ∀ n, n ≤ (ofDir (dirOf d) ms).length →
    ∃ ms', Taken (dirOf d) ((ofDir (dirOf d) ms).take n) ms ms' ∧ ms'.map bare = without d n (ms.map bare) ∧ ∀ m ∈ ms', m ∈ ms := by
  induction ms with
  | nil =>
    intro n hn
    have : n = 0 := by simpa [ofDir] using hn
    subst this
    exact ⟨[], .nil, rfl, by simp⟩
  | cons m ms ih =>
    intro n hn
    have ih := ih fun x hx => h x (by simp [hx])
    cases n with
    | zero => exact ⟨m :: ms, by rw [List.take_zero]; exact .nil, by rw [without], by simp⟩
    | succ n =>
      have hm : (bare m).1 = d ↔ m.dir = dirOf d := by
        rcases h m (by simp) with h | h <;> cases d <;> simp [bare, dirOf, h]
      by_cases hd : m.dir = dirOf d
      · have e : ofDir (dirOf d) (m :: ms) = m.data :: ofDir (dirOf d) ms := by
          unfold ofDir; rw [List.filter_cons_of_pos (by simpa using hd)]; rfl
        rw [e] at hn ⊢
        obtain ⟨ms', h1, h2, h3⟩ := ih n (by simpa using hn)
        refine ⟨ms', ?_, ?_, fun x hx => by simp [h3 x hx]⟩
        · rw [List.take_succ_cons]; exact .take hd h1
        · rw [List.map_cons, without, if_pos (hm.2 hd), h2]
      · have e : ofDir (dirOf d) (m :: ms) = ofDir (dirOf d) ms := by
          unfold ofDir; rw [List.filter_cons_of_neg (by simpa using hd)]
        rw [e] at hn ⊢
        obtain ⟨ms', h1, h2, h3⟩ := ih (n + 1) hn
        refine ⟨m :: ms', ?_, ?_, ?_⟩
        · match hu : (ofDir (dirOf d) ms).take (n + 1) with
          | [] => rw [List.take_eq_nil_iff] at hu; rcases hu with hu | hu
                  · omega
                  · rw [hu] at hn; simp at hn
          | b :: bs => rw [hu] at h1; exact .skip hd h1
        · rw [List.map_cons, List.map_cons, without, if_neg fun x => hd (hm.1 x), h2]
        · intro x hx
          rcases List.mem_cons.1 hx with rfl | hx
          · simp
          · simp [h3 x hx]

theorem shows_viewing (legacy : Bool) (n : Nat) : ∀ ms : List Msg, ms.length ≤ n → (∀ m ∈ ms, m.dir = 0 ∨ m.dir = 1) →
    Viewing (Cli.table legacy) ms ((shows legacy (ms.map bare)).map fun e => (dirOf e.1, e.2)) := by
  induction n with
  | zero =>
    intro ms hl _
    have : ms = [] := by simpa using hl
    subst this
    rw [List.map_nil, shows]
    exact .done
  | succ n ih =>
    intro ms hl h
    cases ms with
    | nil => rw [List.map_nil, shows]; exact .done
    | cons m ms =>
      rw [List.map_cons, shows, ← List.map_cons, ofDir_bare _ h, bare_dir (h m (by simp))]
      have hf := firstFrame_call legacy (ofDir m.dir (m :: ms))
      match he : firstFrame legacy [] (ofDir m.dir (m :: ms)) with
      | none => rw [he] at hf; exact .cut hf
      | some (k, x) =>
        rw [he] at hf
        obtain ⟨h1, h2, h3⟩ := hf
        have hd := bare_dir (h m (by simp))
        obtain ⟨ms', h4, h5, h6⟩ := taken_without (m :: ms) h (bare m).1 k (by rw [hd]; exact h2)
        have hw : without (bare m).1 k ((m :: ms).map bare) = without (bare m).1 (k - 1) (ms.map bare) := by
          match k, h1 with
          | k + 1, _ => rw [List.map_cons, without, if_pos rfl]; rfl
        simp only [List.map_cons, hd]
        have hlt : ms'.length ≤ n := by
          have e : ms'.length = (without (bare m).1 (k - 1) (ms.map bare)).length := by rw [← hw, ← h5, List.length_map]
          have := without_le (bare m).1 (k - 1) (ms.map bare)
          rw [List.length_map] at this
          simp only [List.length_cons] at hl
          omega
        refine .frame (ms' := ms') h3 ?_ ?_
        · rw [hd] at h4; exact h4
        · rw [← hw, ← h5]
          exact ih ms' hlt fun x hx => h x (h6 x hx)

/-! ### the packets in the frames shown -/

theorem mode_through {m m' : Bool} {ps : List Bytes} {cmds : List Command} (h : Decoded m ps m' cmds) : m' = trxThrough m ps := by
  induction h with
  | nil => rfl
  | @cons m m1 m' p ps cmd cmds err h1 h2 ih =>
    have e := unmarshal_mode_id m p _ h1
    have hid := unmarshalID_split p
    rw [ih]
    unfold trxThrough
    rw [List.foldl_cons]
    congr 1
    match hs : splitID p with
    | none =>
      rw [hs] at hid
      obtain ⟨e', r, hid⟩ := hid
      rw [hid] at e
      exact e
    | some (l, c, r) =>
      rw [hs] at hid
      have hid : unmarshalLingoCmdID p = _ := hid
      rw [hid] at e
      rw [show m1 = handleCmdID m (idOf l c) from e, trxAfter_eq]

theorem fatal_iff (m : Bool) (ps : List Bytes) : decodeAll m ps = .panic ↔ fatal m ps = true := by
  have h := packets_heard m (⟨⟨0x00, []⟩, [], 0, [], 0⟩ : Ctx DevGeneral) (fun _ => ⟨2000, 1, 1, 0, 0⟩) ps
  unfold fatal
  change (_ ∧ Pod.hearsAll _ (⟨m, 0x00, 0, 0⟩ : Pod) ps = none) ∨ _ at h
  rcases h with ⟨h1, h2⟩ | ⟨m', cmds, h1, c', new, h2, h3, h4⟩
  · rw [h1, h2]; simp
  · change Pod.hearsAll _ (⟨m, 0x00, 0, 0⟩ : Pod) ps = _ at h4
    rw [h1, h4]; simp

/-- The viewer's loop: it shows all, or dies of a packet as specified, or crashes at a frame that announces more than it has. -/
theorem dumpLoop_fate (legacy : Bool) {grow : Growth} {mem : Ptr → Msg} (fuel : Nat) {q : Queue} {l : List Ptr}
    (h : QRel mem q l) (hf : l.length < fuel) (mode : Bool) {evs : List (Bool × Except Err Bytes)}
    (hv : Viewing (Cli.table legacy) (l.map mem) (evs.map fun e => (dirOf e.1, e.2))) :
    (survived mode evs = true ∧ ∃ shown, dumpLoop grow (Cli.table legacy) mem fuel q mode = .ret (some shown)) ∨
    (survived mode evs = false ∧ dumpLoop grow (Cli.table legacy) mem fuel q mode = .panic) ∨
    (dumpLoop grow (Cli.table legacy) mem fuel q mode = .panic ∧ ∃ f ∈ framesShown evs, exceeds f = true) := by
  induction fuel generalizing q l mode evs with
  | zero => omega
  | succ fuel ih =>
    have hhead : q.head = l.head? := by rw [Queue.head, ← h.all, List.head?_map]
    cases l with
    | nil =>
      have he : evs = [] := by
        cases evs with
        | nil => rfl
        | cons e evs => cases hv
      subst he
      left
      refine ⟨rfl, [], ?_⟩
      rw [dumpLoop, hhead]
      rfl
    | cons p l =>
      have hd : (mem p).dir = 0 ∨ (mem p).dir = 1 := by
        have : p ∈ q.all.map (·.msg) := by rw [h.all]; simp
        obtain ⟨i, hi, rfl⟩ := List.mem_map.1 this
        exact h.valid i hi
      rw [dumpLoop, hhead]
      simp only [List.head?_cons]
      rcases readFrameQueue_rel (grow := grow) (defs := Cli.table legacy) hd h with h1 | ⟨q', h1, h2⟩ | ⟨q', l', x, used, h1, h2, h3, h4, h5, h6⟩
      · exfalso
        exact readFrameQueue_no_panic (by cases legacy <;> decide) hd h h1
      · have he : evs.map (fun e => (dirOf e.1, e.2)) = [] := viewing_cut h2 hv
        have he : evs = [] := by simpa using he
        subst he
        left
        rw [h1]
        exact ⟨rfl, [], rfl⟩
      · rw [h1]
        simp only [Out.bind_ret]
        simp only [List.length_cons] at hf h6
        -- what is shown begins with this frame
        obtain ⟨e, evs, rfl, he2, hv'⟩ : ∃ e evs', evs = e :: evs' ∧ e.2 = plain x ∧
            Viewing (Cli.table legacy) (l'.map mem) (evs'.map fun e => (dirOf e.1, e.2)) := by
          have htl := shows_viewing legacy _ (l'.map mem) (Nat.le_refl _) (by
            intro m hm
            obtain ⟨p', hp', rfl⟩ := List.mem_map.1 hm
            have : p' ∈ q'.all.map (·.msg) := by rw [h4.all]; exact hp'
            obtain ⟨i, hi, rfl⟩ := List.mem_map.1 this
            exact h4.valid i hi)
          have := C58_viewing_unique hv (.frame (m := mem p) (ms := l.map mem) h3 h5 htl)
          cases evs with
          | nil => cases this
          | cons e evs =>
            simp only [List.map_cons, List.cons.injEq, Prod.mk.injEq] at this
            exact ⟨e, evs, rfl, this.1.2, by rw [this.2]; exact htl⟩
        obtain ⟨ed, ex⟩ := e
        simp only at he2
        subst he2
        cases x with
        | error err =>
          simp only [plain, if_neg (show ¬ err = .eof from fun he => h2 (by rw [he]))]
          rcases ih h4 (by omega) mode hv' with ⟨hs, shown, h7⟩ | ⟨hs, h7⟩ | ⟨h7, f, h8, h9⟩
          · left
            rw [h7]
            exact ⟨hs, _, rfl⟩
          · right; left
            rw [h7]
            exact ⟨hs, rfl⟩
          · right; right
            rw [h7]
            exact ⟨rfl, f, by simpa [framesShown] using h8, h9⟩
        | ok f =>
          simp only [plain]
          have hmem : ∀ g ∈ framesShown evs, g ∈ framesShown ((ed, .ok f.data) :: evs) := fun g hg => by
            simp only [framesShown, List.filterMap_cons] at hg ⊢
            exact List.mem_cons_of_mem _ hg
          rcases scan_packetsIn f.spare f.data with hs | ⟨hx, ps, hs⟩
          · have hrc := readCommands_scan hs mode
            rw [show (⟨f.data, f.spare⟩ : Slice) = f from rfl] at hrc
            have hsv : survived mode ((ed, Except.ok f.data) :: evs) =
                (!fatal mode (packetsIn f.data) && survived (trxThrough mode (packetsIn f.data)) evs) := rfl
            cases hdc : decodeAll mode (packetsIn f.data) with
            | panic =>
              right; left
              rw [hdc] at hrc
              rw [(fatal_iff _ _).1 hdc] at hsv
              rw [hrc]
              exact ⟨hsv, rfl⟩
            | ret z =>
              have hnf : fatal mode (packetsIn f.data) = false := by
                cases hff : fatal mode (packetsIn f.data) with
                | false => rfl
                | true => rw [(fatal_iff _ _).2 hff] at hdc; cases hdc
              have hm := mode_through (decodeAll_ret.1 (show decodeAll mode (packetsIn f.data) = .ret (z.1, z.2) from hdc))
              rw [hdc] at hrc
              simp only [Out.bind_ret, Bool.false_eq_true, if_false] at hrc
              rw [hnf, ← hm] at hsv
              simp only [Bool.not_false, Bool.true_and] at hsv
              rw [hrc]
              simp only [Out.bind_ret]
              rcases ih h4 (by omega) z.1 hv' with ⟨hs', shown, h7⟩ | ⟨hs', h7⟩ | ⟨h7, g, h8, h9⟩
              · left
                rw [h7]
                exact ⟨hsv.trans hs', _, rfl⟩
              · right; left
                rw [h7]
                exact ⟨hsv.trans hs', rfl⟩
              · right; right
                rw [h7]
                exact ⟨rfl, g, hmem g h8, h9⟩
          · right; right
            have hrc := readCommands_scan hs mode
            rw [show (⟨f.data, f.spare⟩ : Slice) = f from rfl] at hrc
            have hrc : readCommands mode f = .panic := by
              rw [hrc]
              cases decodeAll mode ps <;> rfl
            rw [hrc]
            refine ⟨rfl, f.data, ?_, hx⟩
            simp only [framesShown, List.filterMap_cons]
            exact List.mem_cons_self ..

end Ipod
