import Verif.Props.Racers

/-! # Property C126: the rounds of `Model/Readers` are statements of `Model/Racers` taken without interruption -/

namespace Props
open Go Spec Ipod Ipod.Hid

/-- Between rounds, a goroutine is before `ReadReport` or not in a call. -/
def placeOf (inCall : Bool) : Place := if inCall then .top else .out

/-- The two models agree. -/
def SameReaders (s : Readers) (t : Racers) : Prop :=
  t = ⟨s.inCall.map placeOf, s.buf, s.input, returnedBy s.acts, s.crashed⟩

theorem racers_out (grow : Growth) (defs : List ReportDef) {l : List Place} {i : Nat} (hi : i < l.length) (buf : Slice)
    (input : List (Except Err Report)) (returned : List (Nat × Except Err Bytes)) :
    Racers.run grow defs ⟨l.set i .out, buf, input, returned, false⟩ [i, i] = ⟨l.set i .top, buf.reset, input, returned, false⟩ := by
  simp [Racers.run, Racers.step, hi]

theorem racers_emptied (grow : Growth) (defs : List ReportDef) {l : List Place} {i : Nat} (hi : i < l.length) (buf : Slice)
    (input : List (Except Err Report)) (returned : List (Nat × Except Err Bytes)) (lc : UInt8) (data : Bytes) :
    Racers.step grow defs ⟨l.set i (.emptied lc data), buf, input, returned, false⟩ i =
      ⟨l.set i (if lc = linkControlDone then .leaving else .top), buf.write grow data, input, returned, false⟩ := by
  simp [Racers.step, hi]

theorem racers_leaving (grow : Growth) (defs : List ReportDef) {l : List Place} {i : Nat} (hi : i < l.length) (buf : Slice)
    (input : List (Except Err Report)) (returned : List (Nat × Except Err Bytes)) :
    Racers.step grow defs ⟨l.set i .leaving, buf, input, returned, false⟩ i =
      ⟨l.set i .out, buf, input, returned ++ [(i, .ok buf.data)], false⟩ := by
  simp [Racers.step, hi]

/-- With a report that counts in hand, undisturbed: on to the next report, or out of the call. -/
theorem racers_got (grow : Growth) (defs : List ReportDef) {l : List Place} {i : Nat} (hi : i < l.length) (buf : Slice)
    (input : List (Except Err Report)) (returned : List (Nat × Except Err Bytes)) (lc : UInt8) (data : Bytes) :
    ∃ k, Racers.run grow defs ⟨l.set i (.got lc data), buf, input, returned, false⟩ (List.replicate k i) =
      if lc = linkControlDone then
        ⟨l.set i .out, buf.reset.write grow data, input, returned ++ [(i, .ok (buf.reset.write grow data).data)], false⟩
      else if lc = linkControlMoreToFollow then ⟨l.set i .top, buf.reset.write grow data, input, returned, false⟩
      else if lc = linkControlContinue ||| linkControlMoreToFollow then ⟨l.set i .top, buf.write grow data, input, returned, false⟩
      else if lc = linkControlContinue then ⟨l.set i .out, buf.write grow data, input, returned ++ [(i, .ok (buf.write grow data).data)], false⟩
      else ⟨l.set i .top, buf, input, returned, false⟩ := by
  have hg : (l.set i (.got lc data))[i]? = some (.got lc data) := List.getElem?_set_self hi
  have h1 : Racers.step grow defs ⟨l.set i (.got lc data), buf, input, returned, false⟩ i =
      if lc = linkControlDone then ⟨l.set i (.emptied lc data), buf.reset, input, returned, false⟩
      else if lc = linkControlMoreToFollow then ⟨l.set i (.emptied lc data), buf.reset, input, returned, false⟩
      else if lc = linkControlContinue ||| linkControlMoreToFollow then ⟨l.set i .top, buf.write grow data, input, returned, false⟩
      else if lc = linkControlContinue then ⟨l.set i .leaving, buf.write grow data, input, returned, false⟩
      else ⟨l.set i .top, buf, input, returned, false⟩ := by
    rw [Racers.step, if_neg (by simp)]
    simp only [hg, List.set_set]
  by_cases l0 : lc = linkControlDone
  · refine ⟨3, ?_⟩
    simp only [List.replicate, Racers.run, List.foldl_cons, List.foldl_nil]
    rw [h1, if_pos l0, if_pos l0, racers_emptied _ _ hi, if_pos l0, racers_leaving _ _ hi]
  by_cases l1 : lc = linkControlMoreToFollow
  · refine ⟨2, ?_⟩
    simp only [List.replicate, Racers.run, List.foldl_cons, List.foldl_nil]
    rw [h1, if_neg l0, if_neg l0, if_pos l1, if_pos l1, racers_emptied _ _ hi, if_neg l0]
  by_cases l2 : lc = linkControlContinue ||| linkControlMoreToFollow
  · refine ⟨1, ?_⟩
    simp only [List.replicate, Racers.run, List.foldl_cons, List.foldl_nil]
    rw [h1, if_neg l0, if_neg l0, if_neg l1, if_neg l1, if_pos l2, if_pos l2]
  by_cases l3 : lc = linkControlContinue
  · refine ⟨2, ?_⟩
    simp only [List.replicate, Racers.run, List.foldl_cons, List.foldl_nil]
    rw [h1, if_neg l0, if_neg l0, if_neg l1, if_neg l1, if_neg l2, if_neg l2, if_pos l3, if_pos l3, racers_leaving _ _ hi]
  · refine ⟨1, ?_⟩
    simp only [List.replicate, Racers.run, List.foldl_cons, List.foldl_nil]
    rw [h1, if_neg l0, if_neg l0, if_neg l1, if_neg l1, if_neg l2, if_neg l2, if_neg l3, if_neg l3]

theorem finer_step (grow : Growth) (defs : List ReportDef) {s : Readers} {t : Racers} (h : SameReaders s t) (i : Nat) :
    ∃ k, SameReaders (s.step grow defs i) (t.run grow defs (List.replicate k i)) := by
  unfold SameReaders at *
  subst h
  rw [Readers.step]
  by_cases hc : s.crashed = true
  · rw [if_pos hc]
    exact ⟨0, rfl⟩
  rw [if_neg hc]
  have hc : s.crashed = false := by simpa using hc
  cases hi : s.inCall[i]? with
  | none => exact ⟨0, rfl⟩
  | some b =>
    have hlt : i < s.inCall.length := (List.getElem?_eq_some_iff.1 hi).1
    have hl : i < (s.inCall.map placeOf).length := by simpa using hlt
    have hb : ∀ c, c = b → s.inCall.map placeOf = (s.inCall.map placeOf).set i (placeOf c) := by
      intro c hcb
      have hgi : s.inCall[i] = b := (List.getElem?_eq_some_iff.1 hi).2
      rw [hcb, ← List.map_set, ← hgi, List.set_getElem_self]
    cases b with
    | false =>
      refine ⟨2, ?_⟩
      have := racers_out grow defs hl s.buf s.input (returnedBy s.acts)
      rw [show (Place.out) = placeOf false from rfl, ← hb false rfl] at this
      rw [hc]
      show Racers.run grow defs _ [i, i] = _
      rw [this]
      simp [returnedBy_append, returnedBy, List.map_set, placeOf]
    | true =>
      have ht : (s.inCall.map placeOf)[i]? = some .top := by simp [hi, placeOf]
      cases hin : s.input with
      | nil =>
        refine ⟨1, ?_⟩
        simp only [List.replicate, Racers.run, List.foldl_cons, List.foldl_nil, Racers.step, hc, ht]
        simp [returnedBy_append, returnedBy, List.map_set, placeOf]
      | cons x rs =>
        cases x with
        | error e =>
          refine ⟨1, ?_⟩
          simp only [List.replicate, Racers.run, List.foldl_cons, List.foldl_nil, Racers.step, hc, ht]
          simp [returnedBy_append, returnedBy, List.map_set, placeOf]
        | ok r =>
          simp only [decodeRound]
          cases hf : find defs r.id.toNat with
          | none =>
            refine ⟨1, ?_⟩
            simp only [List.replicate, Racers.run, List.foldl_cons, List.foldl_nil, Racers.step, hc, ht, hf]
            simp [returnedBy_append, returnedBy, List.map_set, placeOf, Except.map]
          | some d =>
            by_cases hd : d.maxPayload < 0
            · refine ⟨1, ?_⟩
              simp only [List.replicate, Racers.run, List.foldl_cons, List.foldl_nil, Racers.step, hc, ht, hf, if_pos hd]
              simp
            · simp only [if_neg hd]
              obtain ⟨k, hk⟩ := racers_got grow defs hl s.buf rs (returnedBy s.acts) r.linkControl
                (r.data.take (min r.data.length d.maxPayload.toNat))
              refine ⟨k + 1, ?_⟩
              have e2 := hk
              have e3 : Racers.step grow defs ⟨s.inCall.map placeOf, s.buf, .ok r :: rs, returnedBy s.acts, s.crashed⟩ i =
                  ⟨(s.inCall.map placeOf).set i (.got r.linkControl (r.data.take (min r.data.length d.maxPayload.toNat))), s.buf, rs,
                    returnedBy s.acts, false⟩ := by
                rw [Racers.step, if_neg (by simp [hc])]
                simp only [ht, hf, if_neg hd, hc]
              rw [List.replicate_succ, Racers.run, List.foldl_cons, e3]
              rw [Racers.run] at e2
              rw [e2]
              have htop := hb true rfl
              rw [show placeOf true = .top from rfl] at htop
              split
              · simp [returnedBy_append, returnedBy, List.map_set, placeOf, Except.map, hc]
              split
              · simp [returnedBy_append, returnedBy, hc, ← htop]
              split
              · simp [returnedBy_append, returnedBy, hc, ← htop]
              split
              · simp [returnedBy_append, returnedBy, List.map_set, placeOf, Except.map, hc]
              · simp [returnedBy_append, returnedBy, hc, ← htop]

theorem finer_run (grow : Growth) (defs : List ReportDef) (schedule : List Nat) {s : Readers} {t : Racers} (h : SameReaders s t) :
    ∃ schedule', SameReaders (s.run grow defs schedule) (t.run grow defs schedule') := by
  induction schedule generalizing s t with
  | nil => exact ⟨[], h⟩
  | cons i schedule ih =>
    obtain ⟨k, hk⟩ := finer_step grow defs h i
    obtain ⟨schedule', hs⟩ := ih hk
    refine ⟨List.replicate k i ++ schedule', ?_⟩
    rw [Racers.run, List.foldl_append]
    exact hs

/-- C126, of the two models: whatever can happen when each round of a call is one step (frames that lose their beginning, panics with a
table that is not usable) can happen when each statement is one. -/
theorem C126_finer (grow : Growth) (defs : List ReportDef) (n : Nat) (input : List (Except Err Report)) (schedule : List Nat) :
    ∃ schedule',
      ((Racers.start n input).run grow defs schedule').returned = returnedBy ((Readers.start n input).run grow defs schedule).acts ∧
      ((Racers.start n input).run grow defs schedule').input = ((Readers.start n input).run grow defs schedule).input ∧
      ((Racers.start n input).run grow defs schedule').buf = ((Readers.start n input).run grow defs schedule).buf ∧
      ((Racers.start n input).run grow defs schedule').crashed = ((Readers.start n input).run grow defs schedule).crashed := by
  obtain ⟨schedule', h⟩ := finer_run grow defs schedule (s := Readers.start n input) (t := Racers.start n input)
    (by simp [SameReaders, Racers.start, Readers.start, placeOf, returnedBy])
  refine ⟨schedule', ?_⟩
  rw [h]
  exact ⟨rfl, rfl, rfl, rfl⟩

theorem racers_length (grow : Growth) (defs : List ReportDef) (s : Racers) (i : Nat) : (s.step grow defs i).all.length = s.all.length := by
  rw [Racers.step]
  repeat' split
  all_goals simp

/-- C126, one goroutine, statement by statement: after any number of steps it has got what `ReadFrame`, called again and again, returns. -/
theorem C126_one (grow : Growth) (defs : List ReportDef) (input : List (Except Err Report)) (k : Nat) :
    readFrames grow defs ((Racers.start 1 input).run grow defs (List.replicate k 0)).returned.length input ⟨[], []⟩ =
      .ret (((Racers.start 1 input).run grow defs (List.replicate k 0)).returned.map (·.2)) := by
  have key : ∀ (k : Nat) (s : Racers), s.all.length = 1 → Excluding grow defs s (List.replicate k 0) := by
    intro k
    induction k with
    | zero => exact fun _ _ => trivial
    | succ k ih =>
      refine fun s hs => ⟨fun j p hj h => ?_, ih _ (by rw [racers_length, hs])⟩
      have := (List.getElem?_eq_some_iff.1 h).1
      omega
  exact C126_exclusion grow defs 1 input _ (key k _ rfl)

/-- Every schedule of rounds, for two goroutines and a frame of two reports: some schedule of statements has the same outcome. -/
example (schedule : List Nat) :=
  C126_finer (fun _ n => 2 * n) [⟨1, 3, .accIn⟩] 2 [.ok ⟨1, 2, [1, 2]⟩, .ok ⟨1, 1, [3, 0]⟩] schedule

/-- The beginning of the frame is missing: by rounds, and by statements. -/
example : returnedBy ((Readers.start 2 [.ok ⟨1, 2, [1, 2]⟩, .ok ⟨1, 1, [3, 0]⟩]).run (fun _ n => 2 * n) [⟨1, 3, .accIn⟩] [0, 0, 1, 1]).acts =
      [(1, .ok [3, 0])] ∧
    ((Racers.start 2 [.ok ⟨1, 2, [1, 2]⟩, .ok ⟨1, 1, [3, 0]⟩]).run (fun _ n => 2 * n) [⟨1, 3, .accIn⟩]
      [0, 0, 0, 0, 0, 1, 1, 1, 1, 1]).returned = [(1, .ok [3, 0])] := ⟨rfl, rfl⟩

/-- `C126_one` after eight steps: one frame returned, the second read. -/
example := C126_one (fun _ n => 2 * n) [⟨1, 3, .accIn⟩] [.ok ⟨1, 0, [1, 2]⟩, .ok ⟨1, 0, [3, 0]⟩] 8

example : ((Racers.start 1 [.ok ⟨1, 0, [1, 2]⟩, .ok ⟨1, 0, [3, 0]⟩]).run (fun _ n => 2 * n) [⟨1, 3, .accIn⟩] (List.replicate 8 0)).returned =
    [(0, .ok [1, 2])] := rfl

end Props
