import Verif.Lemmas.Trace

/-! # Properties C38–C43, C45: traces -/

namespace Props
open Go Spec Ipod Ipod.Trace

/-! ## C38 -/

/-- C38, writing. A message with a valid direction and data is written as its line; any other is refused. -/
theorem C38_written_text (m : Msg) :
    (∀ t, msgMarshal m = .ok t ↔ ∃ sign, signOf m.dir = some sign ∧ m.data ≠ [] ∧ t = lineOf sign m.data) ∧
    ((∃ e, msgMarshal m = .error e) ↔ (m.dir ≠ 0 ∧ m.dir ≠ 1) ∨ m.data = []) := by
  have hnone : signOf m.dir = none ↔ m.dir ≠ 0 ∧ m.dir ≠ 1 := by
    unfold signOf
    by_cases h0 : m.dir = 0
    · simp [h0]
    · by_cases h1 : m.dir = 1 <;> simp [h0, h1]
  rcases msgMarshal_eq m with ⟨sign, h1, h2, h3⟩ | ⟨h1, e, h2⟩
  · rw [h3]
    constructor
    · intro t
      constructor
      · intro h; cases h; exact ⟨sign, h1, h2, rfl⟩
      · rintro ⟨sign', h4, _, rfl⟩
        rw [h1] at h4
        cases h4
        rfl
    · rw [← hnone, h1]
      simp [h2]
  · rw [h2]
    constructor
    · intro t
      constructor
      · intro h; cases h
      · rintro ⟨sign', h4, h5, rfl⟩
        rcases h1 with h | h
        · rw [h] at h4; cases h4
        · exact absurd h h5
    · rw [← hnone]
      exact ⟨fun _ => h1, fun _ => ⟨e, rfl⟩⟩

/-- C38, round trip: the written line is read back as the message, into whatever message variable. -/
theorem C38_text_roundtrip (m m0 : Msg) (t : Bytes) (h : msgMarshal m = .ok t) :
    msgUnmarshal m0 t = (⟨m.dir, m0.ts, m.data⟩, none) := by
  obtain ⟨sign, h1, h2, rfl⟩ := ((C38_written_text m).1 t).1 h
  exact (msgUnmarshal_iff m0 ⟨m.dir, m0.ts, m.data⟩ _).2 ⟨looseLine_lineOf h1 h2, rfl⟩

/-- "> 0A FF" -/
example : msgMarshal ⟨1, 0, [0x0A, 0xFF]⟩ = .ok [0x3E, 0x20, 0x30, 0x41, 0x20, 0x46, 0x46] :=
  ((C38_written_text _).1 _).2 ⟨0x3E, rfl, by decide, by decide⟩
example : msgUnmarshal Msg.zero [0x3E, 0x20, 0x30, 0x41, 0x20, 0x46, 0x46] = (⟨1, 0, [0x0A, 0xFF]⟩, none) :=
  C38_text_roundtrip ⟨1, 7, [0x0A, 0xFF]⟩ _ _ (by decide)

/-! ## C39 -/

/-- Writing messages one after another. -/
def writeMsgs (file : Bytes) (ms : List Msg) : Bytes := ms.foldl (fun f m => (writeMsg f m).1) file

/-- Reading `n` times: what each call delivered. -/
def readMsgs (m0 : Msg) : Nat → Reader → List (Except Err Msg)
  | 0, _ => []
  | n + 1, r =>
    match readMsg r m0 with
    | (r, m, none) => .ok m :: readMsgs m0 n r
    | (r, _, some e) => .error e :: readMsgs m0 n r

theorem writeMsgs_text (ms : List Msg) (h : ∀ m ∈ ms, (m.dir = 0 ∨ m.dir = 1) ∧ m.data ≠ []) (file : Bytes) :
    writeMsgs file ms = file ++ traceText ms := by
  induction ms generalizing file with
  | nil => simp [writeMsgs, traceText]
  | cons m ms ih =>
    obtain ⟨hd, hne⟩ := h m (by simp)
    obtain ⟨sign, hs⟩ : ∃ sign, signOf m.dir = some sign := by
      rcases hd with h | h <;> rw [h] <;> exact ⟨_, rfl⟩
    have hm : msgMarshal m = .ok (lineOf sign m.data) := ((C38_written_text m).1 _).2 ⟨sign, hs, hne, rfl⟩
    have hw : (writeMsg file m).1 = file ++ (lineOf sign m.data ++ [0x0A]) := by rw [writeMsg, hm]
    have := ih (fun m hm => h m (by simp [hm])) (file ++ (lineOf sign m.data ++ [0x0A]))
    simp only [writeMsgs, List.foldl_cons, hw] at this ⊢
    rw [this]
    simp [traceText, hs]

/-- C39. Writing gives the text of the messages, and reading it gives the messages in order, numbered from zero, and
then the end of the file (`io.EOF`, or the error of the file) for ever. -/
theorem C39_file_roundtrip (ms : List Msg) (h : ∀ m ∈ ms, Traceable m) (m0 : Msg) (ending : Option Err) (k : Nat) :
    readMsgs m0 (ms.length + k) (newReader (writeMsgs [] ms) ending) =
      (ms.zipIdx.map fun p => .ok ⟨p.1.dir, UInt64.ofNat p.2, p.1.data⟩) ++
        List.replicate k (.error (ending.getD .eof)) := by
  rw [writeMsgs_text ms (fun m hm => ⟨(h m hm).1, by have := (h m hm).2.1; intro h0; rw [h0] at this; simp at this⟩)]
  rw [List.nil_append, newReader]
  suffices ∀ i, readMsgs m0 (ms.length + k) ⟨traceText ms, ending, none, UInt64.ofNat i⟩ =
      ((ms.zipIdx i).map fun p => .ok ⟨p.1.dir, UInt64.ofNat p.2, p.1.data⟩) ++
        List.replicate k (.error (ending.getD .eof)) from this 0
  induction ms with
  | nil =>
    intro i
    simp only [List.length_nil, Nat.zero_add, List.zipIdx_nil, List.map_nil, List.nil_append]
    cases k with
    | zero => rfl
    | succ k =>
      have he : ∀ k (r : Reader), r.err = some (ending.getD .eof) →
          readMsgs m0 k r = List.replicate k (.error (ending.getD .eof)) := by
        intro k
        induction k with
        | zero => intros; rfl
        | succ k ih =>
          intro r hr
          rw [readMsgs, readMsg, hr]
          simp only [List.replicate_succ]
          rw [ih r hr]
      rw [readMsgs, readMsg]
      simp only [traceText, List.flatMap_nil, readMsgLoop_nil, List.replicate_succ]
      rw [he k _ rfl]
  | cons m ms ih =>
    intro i
    rw [show (m :: ms).length + k = (ms.length + k) + 1 from by simp; omega, readMsgs, readMsg]
    have ht : traceText (m :: ms) = lineOf ((signOf m.dir).getD 0) m.data ++ 0x0A :: traceText ms := by
      simp [traceText]
    simp only [ht, readMsgLoop_line (h m (by simp)), List.zipIdx_cons, List.map_cons, List.cons_append]
    rw [show UInt64.ofNat i + 1 = UInt64.ofNat (i + 1) from by simp [UInt64.ofNat_add]]
    rw [ih (fun m hm => h m (by simp [hm]))]

example : readMsgs Msg.zero 4 (newReader (writeMsgs [] [⟨0, 5, [1]⟩, ⟨1, 5, [2, 3]⟩]) none) =
    [.ok ⟨0, 0, [1]⟩, .ok ⟨1, 1, [2, 3]⟩, .error .eof, .error .eof] :=
  C39_file_roundtrip [⟨0, 5, [1]⟩, ⟨1, 5, [2, 3]⟩] (by
    intro m hm
    simp only [List.mem_cons, List.not_mem_nil, or_false] at hm
    rcases hm with rfl | rfl
    · exact ⟨.inl rfl, by decide, by decide⟩
    · exact ⟨.inr rfl, by decide, by decide⟩) _ none 2

/-! ## C40 -/

/-- C40 (partial: the exact set of accepted lines, larger than it should be). A line is accepted, with this result,
exactly if it is a `LooseLine`. What is missing for the full claim, that only `StrictLine`s are accepted, is false:
`C40_accepts_malformed`. -/
theorem C40_accepted_iff_partial (m0 m : Msg) (text : Bytes) :
    msgUnmarshal m0 text = (m, none) ↔ LooseLine text m.dir m.data ∧ m.ts = m0.ts :=
  msgUnmarshal_iff m0 m text

/-- C40 (partial). In particular a line without a sign, and a line without the digits of a byte behind its second
character, is refused. -/
theorem C40_refused_partial (m0 : Msg) (text : Bytes)
    (h : (∀ c ∈ text.head?, c ≠ 0x3C ∧ c ≠ 0x3E) ∨ (∀ c ∈ text.drop 2, ∀ v, ¬ IsHex c v)) :
    ∃ m e, msgUnmarshal m0 text = (m, some e) := by
  rcases hu : msgUnmarshal m0 text with ⟨m, _ | e⟩
  · exfalso
    obtain ⟨⟨sign, c, rest, ws, digits, tail, rfl, _, hs, hf, _, hx, hne, _⟩, _⟩ := (msgUnmarshal_iff _ _ _).1 hu
    rcases h with h | h
    · have := h sign rfl
      rcases signOf_some hs with ⟨_, rfl⟩ | ⟨_, rfl⟩
      · exact this.1 rfl
      · exact this.2 rfl
    · generalize m.data = data at hx hne
      cases hx with
      | nil => exact hne rfl
      | @cons a _ _ _ _ _ ha _ _ =>
        have hm : a ∈ rest.filter (· ≠ 0x20) := by rw [hf]; simp
        exact h a (List.mem_filter.1 hm).1 _ ha
  · exact ⟨m, e, rfl⟩

/-- C40, negation: "<x01zz" is read as the byte 01. -/
theorem C40_accepts_malformed :
    ∃ text m, ¬ StrictLine text ∧ msgUnmarshal Msg.zero text = (m, none) ∧ m.data = [1] := by
  refine ⟨[0x3C, 0x78, 0x30, 0x31, 0x7A, 0x7A], ⟨0, 0, [1]⟩, ?_, by decide +kernel, rfl⟩
  rintro ⟨sign, rest, h, _⟩
  cases h

/-- C40: well-formed lines with an even, positive number of digits are accepted. -/
theorem C40_accepts_wellformed (m0 : Msg) (sign : UInt8) (d : Dir) (hs : signOf d = some sign) (rest digits data : Bytes)
    (hr : rest.filter (· ≠ 0x20) = digits) (hx : HexText digits data) (hne : data ≠ []) :
    msgUnmarshal m0 (sign :: 0x20 :: rest) = (⟨d, m0.ts, data⟩, none) := by
  refine (msgUnmarshal_iff m0 ⟨d, m0.ts, data⟩ _).2
    ⟨⟨sign, 0x20, rest, [], digits, [], rfl, ?_, hs, by simpa using hr, by simp, hx, hne, by simp⟩, rfl⟩
  have h1 : digits.length ≤ rest.length := by rw [← hr]; exact List.length_filter_le _ _
  have h2 : 2 ≤ digits.length := by
    cases hx with
    | nil => exact absurd rfl hne
    | cons => simp
  omega

example : msgUnmarshal Msg.zero [0x3C, 0x20, 0x30, 0x20, 0x66] = (⟨0, 0, [0x0F]⟩, none) :=
  C40_accepts_wellformed _ 0x3C 0 rfl [0x30, 0x20, 0x66] [0x30, 0x66] [0x0F] (by decide)
    (.cons (a := 0x30) (b := 0x66) (x := 0) (y := 15) (by decide) (by decide) .nil) (by decide)
example : ∃ m e, msgUnmarshal Msg.zero [0x3F, 0x20, 0x30, 0x66] = (m, some e) :=
  C40_refused_partial _ _ (.inl (by decide))

/-! ## C41 -/

/-- The bytes an operation moved, if it succeeded. -/
def moved : TOp → Option (Dir × Bytes)
  | .read ⟨d, none⟩ => some (0, d)
  | .write p ⟨n, none⟩ => some (1, p.take n)
  | _ => none

/-- The device's own answer. -/
def answer : TOp → TRes
  | .read res => .read res
  | .write _ res => .write res

/-- C41. Callers get the device's answers, and the trace gets one line for every successful operation that moved at
least one byte, in order, and nothing else. -/
theorem C41_tracer (ops : List TOp) (file : Bytes) :
    runTracer file ops =
      (file ++ ((ops.filterMap moved).filter (fun p => p.2 ≠ [])).flatMap
          (fun p => lineOf (if p.1 = 0 then 0x3C else 0x3E) p.2 ++ [0x0A]),
       ops.map answer) := by
  induction ops generalizing file with
  | nil => simp [runTracer]
  | cons op ops ih =>
    have hw : ∀ (d : Dir) (data : Bytes), d = 0 ∨ d = 1 → (writeMsg file ⟨d, 0, data⟩).1 =
        file ++ if data = [] then [] else lineOf (if d = 0 then 0x3C else 0x3E) data ++ [0x0A] := by
      intro d data hd
      by_cases h0 : data = []
      · rcases ((C38_written_text ⟨d, 0, data⟩).2.2 (.inr h0)) with ⟨e, he⟩
        rw [writeMsg, he]
        simp [h0]
      · have hs : signOf d = some (if d = 0 then 0x3C else 0x3E) := by
          rcases hd with rfl | rfl <;> rfl
        rw [writeMsg, ((C38_written_text ⟨d, 0, data⟩).1 _).2 ⟨_, hs, h0, rfl⟩]
        simp [h0]
    cases op with
    | read res =>
      obtain ⟨d, err⟩ := res
      cases err with
      | some e => simp [runTracer, tracerRead, ih, answer, show moved (.read ⟨d, some e⟩) = none from rfl]
      | none =>
        have := hw 0 d (.inl rfl)
        rw [runTracer, tracerRead]
        simp only [dirIn, this, ih, List.map_cons, answer, List.filterMap_cons, moved]
        by_cases h0 : d = []
        · simp [h0]
        · simp [h0]
    | write p res =>
      obtain ⟨n, err⟩ := res
      cases err with
      | some e => simp [runTracer, tracerWrite, ih, answer, show moved (.write p ⟨n, some e⟩) = none from rfl]
      | none =>
        have := hw 1 (p.take n) (.inr rfl)
        rw [runTracer, tracerWrite]
        simp only [dirOut, this, ih, List.map_cons, answer, List.filterMap_cons, moved]
        by_cases h0 : p.take n = []
        · simp [h0]
        · simp [h0]

example : (runTracer [] [.read ⟨[1], none⟩, .read ⟨[9], some .eof⟩, .write [2, 3] ⟨1, none⟩]).1 =
    [0x3C, 0x20, 0x30, 0x31, 0x0A, 0x3E, 0x20, 0x30, 0x32, 0x0A] := by
  rw [C41_tracer]; decide

/-! ## C42 -/

theorem dirReaderRead_skip {dir : Dir} {size : Nat} {m : Msg} (hm : Traceable m) (rest : Bytes) (ending : Option Err)
    (ts : UInt64) :
    dirReaderRead dir size ⟨lineOf ((signOf m.dir).getD 0) m.data ++ 0x0A :: rest, ending, none, ts⟩ =
      if m.dir = dir then (⟨rest, ending, none, ts + 1⟩, ⟨m.data.take size, none⟩)
      else dirReaderRead dir size ⟨rest, ending, none, ts + 1⟩ := by
  rw [dirReaderRead]
  have := readMsgLoop_line (m0 := Msg.zero) hm rest ending none ts
  simp only
  split
  · rename_i r' m' he
    rw [this] at he
    cases he
    simp only
    by_cases hd : m.dir = dir
    · simp [hd]
    · simp [hd]
  · rename_i he
    rw [this] at he
    cases he

theorem dirReaderRead_nil (dir : Dir) (size : Nat) (ending : Option Err) (ts : UInt64) :
    dirReaderRead dir size ⟨[], ending, none, ts⟩ =
      (⟨[], ending, some (ending.getD .eof), ts⟩, ⟨[], some (ending.getD .eof)⟩) := by
  rw [dirReaderRead]
  simp only
  split
  · rename_i r' m' he
    rw [readMsgLoop_nil] at he
    cases he
  · rename_i he
    rw [readMsgLoop_nil] at he
    cases he
    rfl

/-- C42. The reader of a direction, on the file of any messages, delivers the data of the messages of that direction,
one per `Read` (as much as the buffer holds), and then the end of the file for ever. -/
theorem C42_direction_reader (ms : List Msg) (h : ∀ m ∈ ms, Traceable m) (dir : Dir) (size : Nat) (ending : Option Err)
    (k : Nat) :
    dirReads dir size ((ms.filter (·.dir = dir)).length + k) (newReader (traceText ms) ending) =
      ((ms.filter (·.dir = dir)).map fun m => ⟨m.data.take size, none⟩) ++
        List.replicate k ⟨[], some (ending.getD .eof)⟩ := by
  rw [newReader]
  generalize (0 : UInt64) = ts
  induction ms generalizing ts with
  | nil =>
    simp only [List.filter_nil, List.length_nil, Nat.zero_add, List.map_nil, List.nil_append]
    cases k with
    | zero => rfl
    | succ k =>
      have he : ∀ k (r : Reader), r.err = some (ending.getD .eof) →
          dirReads dir size k r = List.replicate k ⟨[], some (ending.getD .eof)⟩ := by
        intro k
        induction k with
        | zero => intros; rfl
        | succ k ih =>
          intro r hr
          have : dirReaderRead dir size r = (r, ⟨[], some (ending.getD .eof)⟩) := by rw [dirReaderRead, hr]
          rw [dirReads, this, ih r hr]
          rfl
      rw [dirReads]
      simp only [traceText, List.flatMap_nil, dirReaderRead_nil]
      rw [he k _ rfl]
      rfl
  | cons m ms ih =>
    have ht : traceText (m :: ms) = lineOf ((signOf m.dir).getD 0) m.data ++ 0x0A :: traceText ms := by
      simp [traceText]
    have hi := ih (fun m hm => h m (by simp [hm])) (ts + 1)
    have hskip := dirReaderRead_skip (dir := dir) (size := size) (h m (by simp)) (traceText ms) ending ts
    by_cases hd : m.dir = dir
    · rw [if_pos hd] at hskip
      rw [List.filter_cons_of_pos (by simpa using hd), List.length_cons,
        show (ms.filter (·.dir = dir)).length + 1 + k = ((ms.filter (·.dir = dir)).length + k) + 1 from by omega,
        dirReads, ht, hskip]
      simp only [hi, List.map_cons, List.cons_append]
    · rw [if_neg hd] at hskip
      rw [List.filter_cons_of_neg (by simpa using hd)]
      cases hn : (ms.filter (·.dir = dir)).length + k with
      | zero =>
        rw [hn] at hi
        rw [← hi]
        rfl
      | succ n =>
        rw [hn] at hi
        rw [← hi, dirReads, dirReads, ht, hskip]

example : dirReads 0 1024 3 (newReader (traceText [⟨0, 0, [1]⟩, ⟨1, 0, [2]⟩, ⟨0, 0, [3]⟩]) none) =
    [⟨[1], none⟩, ⟨[3], none⟩, ⟨[], some .eof⟩] :=
  C42_direction_reader [⟨0, 0, [1]⟩, ⟨1, 0, [2]⟩, ⟨0, 0, [3]⟩] (by
    intro m hm
    simp only [List.mem_cons, List.not_mem_nil, or_false] at hm
    rcases hm with rfl | rfl | rfl
    · exact ⟨.inl rfl, by decide, by decide⟩
    · exact ⟨.inr rfl, by decide, by decide⟩
    · exact ⟨.inl rfl, by decide, by decide⟩) 0 1024 none 1

/-! ## C43 -/

/-- An operation on the queue, with the memory the messages are in. -/
def queueStep (mem : Ptr → Msg) (q : Queue) : QOp → Out (Queue × Option Ptr)
  | .enqueue p => q.enqueue mem p >>= fun q => .ret (q, none)
  | .head => .ret (q, q.head)
  | .dequeue => q.dequeue mem
  | .dequeueDir d => q.dequeueDir mem d

/-- A sequence of operations: what each returned. -/
def queueRun (mem : Ptr → Msg) : Queue → List QOp → Out (List (Option Ptr))
  | _, [] => .ret []
  | q, op :: ops => queueStep mem q op >>= fun (q, r) => queueRun mem q ops >>= fun rs => .ret (r :: rs)

/-- The same on the specification. -/
def queueSpecRun (dirOf : Ptr → Dir) : List Ptr → List QOp → List (Option Ptr)
  | _, [] => []
  | l, op :: ops => (queueSpec dirOf l op).2 :: queueSpecRun dirOf (queueSpec dirOf l op).1 ops

/-- An operation whose direction is one of the two. -/
def ValidOp (mem : Ptr → Msg) : QOp → Prop
  | .enqueue p => (mem p).dir = 0 ∨ (mem p).dir = 1
  | .dequeueDir d => d = 0 ∨ d = 1
  | _ => True

/-- The three lists represent `l`. -/
structure QRel (mem : Ptr → Msg) (q : Queue) (l : List Ptr) : Prop where
  all : q.all.map (·.msg) = l
  inn : q.inn = q.all.filter fun i => (mem i.msg).dir = 0
  out : q.out = q.all.filter fun i => (mem i.msg).dir = 1
  nodup : (q.all.map (·.id)).Nodup
  bound : ∀ i ∈ q.all, i.id < q.next
  valid : ∀ i ∈ q.all, (mem i.msg).dir = 0 ∨ (mem i.msg).dir = 1

theorem filter_eraseP {p : QueueItem → Bool} {xs : List QueueItem} {qi : QueueItem} (hn : (xs.map (·.id)).Nodup)
    (hf : xs.find? p = some qi) : xs.filter (·.id ≠ qi.id) = xs.eraseP p := by
  induction xs with
  | nil => simp at hf
  | cons x xs ih =>
    rw [List.map_cons, List.nodup_cons] at hn
    by_cases hp : p x
    · rw [List.find?_cons_of_pos hp] at hf
      cases hf
      rw [List.eraseP_cons_of_pos hp, List.filter_cons_of_neg (by simp), List.filter_eq_self]
      intro y hy
      simp only [decide_eq_true_eq]
      intro h
      exact hn.1 (h ▸ List.mem_map.2 ⟨y, hy, rfl⟩)
    · rw [List.find?_cons_of_neg hp] at hf
      have hx : x.id ≠ qi.id := by
        intro h
        exact hn.1 (h ▸ List.mem_map.2 ⟨qi, List.mem_of_find?_eq_some hf, rfl⟩)
      rw [List.eraseP_cons_of_neg hp, List.filter_cons_of_pos (by simpa using hx), ih hn.2 hf]

theorem nodup_id_inj {xs : List QueueItem} (hn : (xs.map (·.id)).Nodup) {a b : QueueItem} (ha : a ∈ xs) (hb : b ∈ xs)
    (h : a.id = b.id) : a = b := by
  induction xs with
  | nil => simp at ha
  | cons x xs ih =>
    rw [List.map_cons, List.nodup_cons] at hn
    rcases List.mem_cons.1 ha with ha | ha <;> rcases List.mem_cons.1 hb with hb | hb
    · rw [ha, hb]
    · exact absurd (ha ▸ h ▸ List.mem_map.2 ⟨b, hb, rfl⟩) hn.1
    · exact absurd (hb ▸ h ▸ List.mem_map.2 ⟨a, ha, rfl⟩) hn.1
    · exact ih hn.2 ha hb

/-- Removing the first item with a property. -/
theorem remove_rel {mem : Ptr → Msg} {q : Queue} {l : List Ptr} (h : QRel mem q l) {p : Ptr → Bool} {qi : QueueItem}
    (hf : q.all.find? (fun i => p i.msg) = some qi) :
    ∃ q', q.remove mem qi = .ret q' ∧ QRel mem q' (l.eraseP p) := by
  have hmem := List.mem_of_find?_eq_some hf
  have her := filter_eraseP h.nodup hf
  have hother : ∀ d, (mem qi.msg).dir ≠ d → (q.all.filter fun i => (mem i.msg).dir = d) =
      (q.all.filter (·.id ≠ qi.id)).filter fun i => (mem i.msg).dir = d := by
    intro d hd
    rw [List.filter_filter]
    apply List.filter_congr
    intro x hx
    by_cases hxd : (mem x.msg).dir = d
    · have : x.id ≠ qi.id := by
        intro he
        rw [nodup_id_inj h.nodup hx hmem he] at hxd
        exact hd hxd
      simp [hxd, this]
    · simp [hxd]
  have hcomm : ∀ d, (q.all.filter fun i => (mem i.msg).dir = d).filter (·.id ≠ qi.id) =
      (q.all.filter (·.id ≠ qi.id)).filter fun i => (mem i.msg).dir = d := by
    intro d
    rw [List.filter_filter, List.filter_filter]
    apply List.filter_congr
    intro x _
    rw [Bool.and_comm]
  have hall : (q.all.filter (·.id ≠ qi.id)).map (·.msg) = l.eraseP p := by
    rw [her, ← h.all, List.eraseP_map]
    rfl
  have hsub : (q.all.filter (·.id ≠ qi.id)).Sublist q.all := List.filter_sublist
  have hnd : ((q.all.filter (·.id ≠ qi.id)).map (·.id)).Nodup := (hsub.map _).nodup h.nodup
  rcases h.valid qi hmem with hd | hd
  · refine ⟨⟨q.all.filter (·.id ≠ qi.id), q.inn.filter (·.id ≠ qi.id), q.out, q.next⟩, ?_, ?_⟩
    · simp only [Queue.remove, Queue.dirList, Queue.setDirList, hd, listRemove]
      rfl
    · refine ⟨hall, ?_, ?_, hnd, fun i hi => h.bound i ((List.mem_filter.1 hi).1),
        fun i hi => h.valid i ((List.mem_filter.1 hi).1)⟩
      · simp only; rw [h.inn, hcomm 0]
      · simp only; rw [h.out, hother 1 (by rw [hd]; decide)]
  · refine ⟨⟨q.all.filter (·.id ≠ qi.id), q.inn, q.out.filter (·.id ≠ qi.id), q.next⟩, ?_, ?_⟩
    · simp only [Queue.remove, Queue.dirList, Queue.setDirList, hd, listRemove]
      rfl
    · refine ⟨hall, ?_, ?_, hnd, fun i hi => h.bound i ((List.mem_filter.1 hi).1),
        fun i hi => h.valid i ((List.mem_filter.1 hi).1)⟩
      · simp only; rw [h.inn, hother 0 (by rw [hd]; decide)]
      · simp only; rw [h.out, hcomm 1]

theorem queueStep_rel {mem : Ptr → Msg} {q : Queue} {l : List Ptr} (h : QRel mem q l) (op : QOp) (hv : ValidOp mem op) :
    ∃ q', queueStep mem q op = .ret (q', (queueSpec (fun p => (mem p).dir) l op).2) ∧
      QRel mem q' (queueSpec (fun p => (mem p).dir) l op).1 := by
  cases op with
  | head =>
    refine ⟨q, ?_, h⟩
    simp only [queueStep, Queue.head, queueSpec, ← h.all, List.head?_map]
  | enqueue p =>
    have hnew : ((q.all ++ [(⟨q.next, p⟩ : QueueItem)]).map (·.id)).Nodup := by
      rw [List.map_append, List.nodup_append]
      refine ⟨h.nodup, by simp, ?_⟩
      intro a ha b hb
      simp only [List.map_cons, List.map_nil, List.mem_singleton] at hb
      obtain ⟨i, hi, rfl⟩ := List.mem_map.1 ha
      have := h.bound i hi
      omega
    have hb : ∀ i ∈ q.all ++ [(⟨q.next, p⟩ : QueueItem)], i.id < q.next + 1 := by
      intro i hi
      rcases List.mem_append.1 hi with hi | hi
      · have := h.bound i hi; omega
      · simp only [List.mem_singleton] at hi; subst hi; simp
    have hval : ∀ i ∈ q.all ++ [(⟨q.next, p⟩ : QueueItem)], (mem i.msg).dir = 0 ∨ (mem i.msg).dir = 1 := by
      intro i hi
      rcases List.mem_append.1 hi with hi | hi
      · exact h.valid i hi
      · simp only [List.mem_singleton] at hi; subst hi; exact hv
    rcases hv with hd | hd
    · refine ⟨⟨q.all ++ [⟨q.next, p⟩], q.inn ++ [⟨q.next, p⟩], q.out, q.next + 1⟩, ?_, ?_⟩
      · simp only [queueStep, Queue.enqueue, Queue.dirList, Queue.setDirList, hd]
        rfl
      · refine ⟨by simp [h.all, queueSpec], ?_, ?_, hnew, hb, hval⟩
        · simp [h.inn, hd]
        · simp [h.out, hd]
    · refine ⟨⟨q.all ++ [⟨q.next, p⟩], q.inn, q.out ++ [⟨q.next, p⟩], q.next + 1⟩, ?_, ?_⟩
      · simp only [queueStep, Queue.enqueue, Queue.dirList, Queue.setDirList, hd]
        rfl
      · refine ⟨by simp [h.all, queueSpec], ?_, ?_, hnew, hb, hval⟩
        · simp [h.inn, hd]
        · simp [h.out, hd]
  | dequeue =>
    simp only [queueStep, Queue.dequeue, queueSpec]
    cases hq : q.all with
    | nil =>
      have hl : l = [] := by rw [← h.all, hq]; rfl
      subst hl
      exact ⟨q, by simp, h⟩
    | cons qi rest =>
      have hf : q.all.find? (fun i => (fun _ => true) i.msg) = some qi := by rw [hq]; rfl
      obtain ⟨q', h1, h2⟩ := remove_rel h (p := fun _ => true) hf
      have hl : l = qi.msg :: rest.map (·.msg) := by rw [← h.all, hq]; rfl
      subst hl
      refine ⟨q', ?_, ?_⟩
      · simp only [List.head?_cons, h1]
        rfl
      · simpa using h2
  | dequeueDir d =>
    have hlist : q.dirList d = .ret (q.all.filter fun i => (mem i.msg).dir = d) := by
      rcases hv with rfl | rfl
      · rw [← h.inn]; rfl
      · rw [← h.out]; rfl
    have hhead : (q.all.filter fun i => (mem i.msg).dir = d).head? = q.all.find? fun i => (mem i.msg).dir = d := by
      rw [List.head?_filter]
    have hspec : l.find? (fun p => (mem p).dir = d) = (q.all.find? fun i => (mem i.msg).dir = d).map (·.msg) := by
      rw [← h.all, List.find?_map]
      rfl
    simp only [queueStep, Queue.dequeueDir, hlist, Out.bind_ret, hhead, queueSpec, hspec]
    cases hf : q.all.find? fun i => (mem i.msg).dir = d with
    | none =>
      refine ⟨q, rfl, ?_⟩
      have hnone : l.find? (fun p => (mem p).dir = d) = none := by rw [hspec, hf]; rfl
      have : l.eraseP (fun p => (mem p).dir = d) = l := by
        apply List.eraseP_of_forall_not
        simpa using hnone
      rw [this]
      exact h
    | some qi =>
      obtain ⟨q', h1, h2⟩ := remove_rel h (p := fun p => (mem p).dir = d) hf
      refine ⟨q', ?_, h2⟩
      simp only [h1]
      rfl

/-- C43. Any sequence of operations with valid directions, on messages whose directions do not change meanwhile,
returns what the one-list specification returns, without panic. -/
theorem C43_queue_is_fifo (mem : Ptr → Msg) (ops : List QOp) (h : ∀ op ∈ ops, ValidOp mem op) :
    queueRun mem Queue.empty ops = .ret (queueSpecRun (fun p => (mem p).dir) [] ops) := by
  have h0 : QRel mem Queue.empty [] := ⟨rfl, rfl, rfl, by simp [Queue.empty], by simp [Queue.empty], by simp [Queue.empty]⟩
  generalize Queue.empty = q at h0
  generalize ([] : List Ptr) = l at h0
  induction ops generalizing q l with
  | nil => rfl
  | cons op ops ih =>
    obtain ⟨q', h1, h2⟩ := queueStep_rel h0 op (h op (by simp))
    rw [queueRun, h1]
    simp only [Out.bind_ret]
    rw [ih (fun op hop => h op (by simp [hop])) q' _ h2]
    rfl

/-- C43: a direction other than the two is a panic, before (dequeue) or after (enqueue) touching the common list. -/
theorem C43_bad_direction_panics (mem : Ptr → Msg) (q : Queue) (d : Dir) (p : Ptr) (h0 : d ≠ 0) (h1 : d ≠ 1) :
    q.dequeueDir mem d = .panic ∧ ((mem p).dir = d → q.enqueue mem p = .panic) := by
  constructor
  · simp [Queue.dequeueDir, Queue.dirList, dirIn, dirOut, h0, h1]
  · intro hd
    simp [Queue.enqueue, Queue.dirList, dirIn, dirOut, hd, h0, h1]

example : Queue.empty.dequeueDir (fun _ => ⟨7, 0, []⟩) 7 = .panic ∧ Queue.empty.enqueue (fun _ => ⟨7, 0, []⟩) 3 = .panic :=
  have h := C43_bad_direction_panics (fun _ => ⟨7, 0, []⟩) Queue.empty 7 3 (by decide) (by decide)
  ⟨h.1, h.2 rfl⟩

/-- The condition that directions stay is needed: if a queued message's direction is changed, the message can be
delivered twice. -/
theorem C43_direction_must_stay : ∃ (mem mem' : Ptr → Msg) (q q' : Queue),
    Queue.empty.enqueue mem 7 = .ret q ∧ q.dequeueDir mem' 0 = .ret (q', some 7) ∧
    ∃ q'', q'.dequeueDir mem' 0 = .ret (q'', some 7) :=
  ⟨fun _ => ⟨0, 0, []⟩, fun _ => ⟨1, 0, []⟩, ⟨[⟨0, 7⟩], [⟨0, 7⟩], [], 1⟩, ⟨[], [⟨0, 7⟩], [], 1⟩, rfl, rfl, _, rfl⟩

example : queueRun (fun p => ⟨if p < 5 then 0 else 1, 0, []⟩) Queue.empty
    [.enqueue 1, .enqueue 7, .enqueue 2, .dequeueDir 1, .dequeue, .head, .dequeueDir 0, .dequeue] =
    .ret [none, none, none, some 7, some 1, some 2, some 2, none] :=
  C43_queue_is_fifo _ _ (by
    intro op hop
    simp only [List.mem_cons, List.not_mem_nil, or_false] at hop
    rcases hop with rfl | rfl | rfl | rfl | rfl | rfl | rfl | rfl <;> simp [ValidOp])

/-! ## C45 -/

/-- C45 (partial: exactly when it holds). The file ends up with just the trace of the session iff the old content was
no longer than it. -/
theorem C45_only_this_session_iff_partial (old session : Bytes) :
    fileAfter old session = session ↔ old.length ≤ session.length := by
  rw [fileAfter]
  constructor
  · intro h
    have := congrArg List.length h
    simp at this
    omega
  · intro h
    rw [List.drop_eq_nil_of_le h, List.append_nil]

/-- C45, negation: a message of the old session is still there after a shorter new one. -/
theorem C45_old_trace_remains : ∃ old new : List Msg, (∀ m ∈ old ++ new, Traceable m) ∧
    fileAfter (traceText old) (traceText new) = traceText (new ++ [⟨0, 0, [2]⟩]) ∧ (⟨0, 0, [2]⟩ : Msg) ∉ new :=
  ⟨[⟨0, 0, [1]⟩, ⟨0, 0, [2]⟩], [⟨0, 0, [3]⟩], by
    intro m hm
    simp only [List.cons_append, List.nil_append, List.mem_cons, List.not_mem_nil, or_false] at hm
    rcases hm with rfl | rfl | rfl <;> exact ⟨.inl rfl, by decide, by decide⟩, by decide, by decide⟩

/-- A new or empty file is always fine. -/
example (session : Bytes) : fileAfter [] session = session :=
  (C45_only_this_session_iff_partial [] session).2 (by simp)

end Props
