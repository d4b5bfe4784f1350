import Verif.Props.Listeners
import Verif.Props.Confirmed

/-! # Property C126: goroutines that read from one transport under a lock, whatever comes from the device -/

namespace Props
open Go Spec Ipod Ipod.Hid

theorem oneAtATime_prefix {a b : List Act} (h : OneAtATime (a ++ b)) : OneAtATime a := by
  intro p q x i e
  exact h p (q ++ b) x i (by rw [e]; simp)

theorem oneAtATime_last {a : List Act} {x : Act} {i : Nat} (h : OneAtATime (a ++ [x] ++ [.call i])) : Act.Returns x :=
  h a [] x i (by simp)

/-- Where the goroutines are: none in a call, or one. -/
def LockedAt (grow : Growth) (defs : List ReportDef) (input : List (Except Err Report)) (s : Readers) : Prop :=
  ((∀ b ∈ s.inCall, b = false) ∧
    callsOn grow defs (returnedBy s.acts).length input ⟨[], []⟩ = .ret ((returnedBy s.acts).map (·.2), s.input, s.buf)) ∨
  (∃ i, i < s.inCall.length ∧ (∀ j b, s.inCall[j]? = some b → (b = true ↔ j = i)) ∧
    (∃ a x, s.acts = a ++ [x] ∧ ¬ Act.Returns x) ∧
    ∃ r0 b0, callsOn grow defs (returnedBy s.acts).length input ⟨[], []⟩ = .ret ((returnedBy s.acts).map (·.2), r0, b0) ∧
      readFrame grow defs r0 b0 = readFrameLoop grow defs s.input s.buf)

theorem set_false {l : List Bool} {i : Nat} (h : ∀ j b, l[j]? = some b → (b = true ↔ j = i)) : ∀ b ∈ l.set i false, b = false := by
  intro b hb
  obtain ⟨j, hj⟩ := List.mem_iff_getElem?.1 hb
  by_cases hji : j = i
  · subst hji
    rw [List.getElem?_set] at hj
    simp only [if_true] at hj
    split at hj
    · simpa using hj.symm
    · cases hj
  · rw [List.getElem?_set_ne (Ne.symm hji)] at hj
    have := h j b hj
    cases b with
    | false => rfl
    | true => exact absurd (this.1 rfl) hji

theorem locked_step (grow : Growth) {defs : List ReportDef} {input : List (Except Err Report)} {s : Readers}
    (h : LockedAt grow defs input s) (i : Nat) (hl : OneAtATime (s.step grow defs i).acts) : LockedAt grow defs input (s.step grow defs i) := by
  have h0 := h
  rw [Readers.step] at hl ⊢
  by_cases hc : s.crashed = true
  · rw [if_pos hc]; exact h0
  rw [if_neg hc] at hl ⊢
  cases hi : s.inCall[i]? with
  | none => exact h0
  | some c =>
    have hlt : i < s.inCall.length := (List.getElem?_eq_some_iff.1 hi).1
    rw [hi] at hl
    cases c with
    | false =>
      simp only at hl ⊢
      rcases h with ⟨h1, h2⟩ | ⟨k, k1, k2, ⟨a, x, k3, k4⟩, -⟩
      · refine .inr ⟨i, by simpa using hlt, ?_, ⟨s.acts, .call i, rfl, id⟩, s.input, s.buf, ?_, rfl⟩
        · intro j b hb
          simp only at hb
          by_cases hj : j = i
          · subst hj
            rw [List.getElem?_set_self hlt] at hb
            simp at hb
            simp [← hb]
          · rw [List.getElem?_set_ne (Ne.symm hj)] at hb
            have := h1 b (List.mem_of_getElem? hb)
            simp [this, hj]
        · simpa [returnedBy_append, returnedBy] using h2
      · rw [k3] at hl
        exact absurd (oneAtATime_last hl) k4
    | true =>
      rcases h with ⟨h1, -⟩ | ⟨k, k1, k2, -, r0, b0, k5, k6⟩
      · exact absurd (h1 true (List.mem_of_getElem? hi)) (by simp)
      · have hk : i = k := (k2 i true hi).1 rfl
        subst hk
        -- the call ends
        have ends : ∀ (input' : List (Except Err Report)) (buf' : Slice) (y : Except Err Report) (x : Except Err Slice),
            readFrameLoop grow defs s.input s.buf = .ret (input', buf', x) →
            LockedAt grow defs input ⟨s.inCall.set i false, buf', input', s.acts ++ [.read i y (some (x.map (·.data)))], s.crashed⟩ := by
          intro input' buf' y x hx
          refine .inl ⟨set_false k2, ?_⟩
          have := callsOn_snoc k5 (by rw [k6]; exact hx)
          simpa [returnedBy_append, returnedBy] using this
        cases hin : s.input with
        | nil => exact ends [] s.buf (.error .eof) (.error .eof) (by rw [hin]; rfl)
        | cons y rs =>
          cases y with
          | error e => exact ends rs s.buf (.error e) (.error e) (by rw [hin]; rfl)
          | ok r =>
            simp only
            cases hd : decodeRound grow defs r s.buf with
            | panic =>
              rcases h0 with h0 | h0
              · exact absurd (h0.1 true (List.mem_of_getElem? hi)) (by simp)
              · rw [hin] at h0; exact .inr h0
            | ret p =>
              cases p with
              | looping b =>
                refine .inr ⟨i, hlt, k2, ⟨s.acts, .read i (.ok r) none, rfl, by simp [Act.Returns]⟩, r0, b0, ?_, ?_⟩
                · simpa [returnedBy_append, returnedBy] using k5
                · rw [k6, hin, loop_round, hd]
              | returned b x => exact ends rs b (.ok r) x (by rw [hin, loop_round, hd])

theorem acts_grow (grow : Growth) (defs : List ReportDef) (s : Readers) (i : Nat) : ∃ more, (s.step grow defs i).acts = s.acts ++ more := by
  rw [Readers.step]
  split
  · exact ⟨[], by simp⟩
  · split
    · exact ⟨[], by simp⟩
    · exact ⟨_, rfl⟩
    · split
      · exact ⟨_, rfl⟩
      · exact ⟨_, rfl⟩
      · split
        · exact ⟨[], by simp⟩
        · exact ⟨_, rfl⟩
        · exact ⟨_, rfl⟩

theorem run_grow (grow : Growth) (defs : List ReportDef) (schedule : List Nat) (s : Readers) :
    ∃ more, (s.run grow defs schedule).acts = s.acts ++ more := by
  induction schedule generalizing s with
  | nil => exact ⟨[], by simp [Readers.run]⟩
  | cons i schedule ih =>
    obtain ⟨m1, h1⟩ := acts_grow grow defs s i
    obtain ⟨m2, h2⟩ := ih (s.step grow defs i)
    exact ⟨m1 ++ m2, by rw [← List.append_assoc, ← h1]; exact h2⟩

theorem locked_run (grow : Growth) {defs : List ReportDef} {input : List (Except Err Report)} (schedule : List Nat) {s : Readers}
    (h : LockedAt grow defs input s) (hl : OneAtATime (s.run grow defs schedule).acts) : LockedAt grow defs input (s.run grow defs schedule) := by
  induction schedule generalizing s with
  | nil => exact h
  | cons i schedule ih =>
    obtain ⟨more, hm⟩ := run_grow grow defs schedule (s.step grow defs i)
    refine ih (locked_step grow h i ?_) hl
    have : OneAtATime ((s.step grow defs i).run grow defs schedule).acts := hl
    rw [hm] at this
    exact oneAtATime_prefix this

/-- C126, with a lock held during each call, whatever comes from the device and whatever the table: the calls of all goroutines together
return, in order, what those of one goroutine alone would. -/
theorem C126_lock_any (grow : Growth) (defs : List ReportDef) (n : Nat) (input : List (Except Err Report)) (schedule : List Nat)
    (hl : OneAtATime ((Readers.start n input).run grow defs schedule).acts) :
    readFrames grow defs (returnedBy ((Readers.start n input).run grow defs schedule).acts).length input ⟨[], []⟩ =
      .ret ((returnedBy ((Readers.start n input).run grow defs schedule).acts).map (·.2)) := by
  have h := locked_run grow schedule (s := Readers.start n input) (input := input) (defs := defs) (.inl ⟨fun b hb => List.eq_of_mem_replicate hb, rfl⟩) hl
  rcases h with ⟨-, h⟩ | ⟨_, _, _, _, _, _, h, -⟩ <;> exact callsOn_frames h

/-- C125, goroutines on both sides, with a lock each: those that read get, in order, the frames of the calls of `WriteFrame` that returned
nil, each once, and `io.EOF` only after the last of them. -/
theorem C125_both_sides (defs : List ReportDef) (hg : GoodTable defs) (fails : Fails) (frames : List (List Bytes)) (schedule : List Nat)
    (hl : Locked defs fails (Callers.start frames) schedule) (s : Callers) (hs : s = (Callers.start frames).run defs fails schedule)
    (hf : s.finished) (grow : Growth) (n : Nat) (schedule' : List Nat) (t : Readers)
    (ht : t = (Readers.start n ((notRefused (s.attempts.map (·.2))).map .ok)).run grow defs schedule') (hl' : OneAtATime t.acts) :
    ∃ (calls : List (Nat × Bytes × Option Err)) (done todo : List Bytes) (k : Nat),
      Mixed (tagged (List.zipWith (fun fs w => fs.zip w.returned) frames s.all)) calls ∧ Confirmed (calls.map (·.2)) (done ++ todo) ∧
      (returnedBy t.acts).map (·.2) = done.map .ok ++ List.replicate k (.error .eof) ∧ (0 < k → todo = []) := by
  obtain ⟨calls, gs, h1, h2, h3⟩ := C125_received defs hg fails frames schedule hl s hs hf grow ⟨[], []⟩
  have h4 := C126_lock_any grow defs n ((notRefused (s.attempts.map (·.2))).map .ok) schedule' (by rw [← ht]; exact hl')
  rw [← ht] at h4
  generalize (notRefused (s.attempts.map (·.2))).map Except.ok = input at h3 h4
  have h5 := h3 (returnedBy t.acts).length
  rw [Nat.add_comm] at h5
  have h6 := readFrames_first h5
  rw [h4, Out.ret.injEq, List.take_append, List.take_replicate, List.length_map] at h6
  refine ⟨calls, gs.take (returnedBy t.acts).length, gs.drop (returnedBy t.acts).length,
    min ((returnedBy t.acts).length - gs.length) (returnedBy t.acts).length, h1, by rw [List.take_append_drop]; exact h2, ?_, fun hk => ?_⟩
  · rw [h6, List.map_take]
  · exact List.drop_eq_nil_of_le (by omega)

/-- Two goroutines that exclude each other, a read that fails in the middle of a frame, and a stray end. -/
example : readFrames (fun _ n => 2 * n) [⟨1, 3, .accIn⟩] 2 [.ok ⟨1, 2, [1, 2]⟩, .error (.other 3), .ok ⟨1, 1, [3, 0]⟩] ⟨[], []⟩ =
    .ret [.error (.other 3), .ok [3, 0]] :=
  C126_lock_any (fun _ n => 2 * n) [⟨1, 3, .accIn⟩] 2 [.ok ⟨1, 2, [1, 2]⟩, .error (.other 3), .ok ⟨1, 1, [3, 0]⟩] [0, 0, 0, 1, 1] (by
    intro a b x i h
    have hs : ((Readers.start 2 [.ok ⟨1, 2, [1, 2]⟩, .error (.other 3), .ok ⟨1, 1, [3, 0]⟩]).run (fun _ n => 2 * n) [⟨1, 3, .accIn⟩]
        [0, 0, 0, 1, 1]).acts = [.call 0, .read 0 (.ok ⟨1, 2, [1, 2]⟩) none, .read 0 (.error (.other 3)) (some (.error (.other 3))), .call 1,
          .read 1 (.ok ⟨1, 1, [3, 0]⟩) (some (.ok [3, 0]))] := rfl
    rw [hs] at h
    match a, h with
    | [], h => simp at h
    | [_], h => simp at h
    | [_, _], h => simp only [List.cons_append, List.nil_append, List.cons.injEq] at h; rw [← h.2.2.1]; rfl
    | [_, _, _], h => simp at h
    | [_, _, _, _], h => simp at h
    | _ :: _ :: _ :: _ :: _ :: a, h => simp at h)

/-- Without the lock a goroutine that was in a call all the time gets the whole frame after the read of the other has failed. -/
example : returnedBy ((Readers.start 2 [.ok ⟨1, 2, [1, 2]⟩, .error (.other 3), .ok ⟨1, 1, [3, 0]⟩]).run (fun _ n => 2 * n) [⟨1, 3, .accIn⟩]
    [0, 1, 0, 0, 1]).acts = [(0, .error (.other 3)), (1, .ok [1, 2, 3, 0])] := rfl

/-- `C125_both_sides`: the second of two frames is refused once; two goroutines read, one at a time. -/
example : ∃ (calls : List (Nat × Bytes × Option Err)) (done todo : List Bytes) (k : Nat),
    Mixed (tagged [[([4], none), ([5], some (.other 7)), ([5], none)]]) calls ∧ Confirmed (calls.map (·.2)) (done ++ todo) ∧
    ([.ok [4, 0], .ok [5, 0], .error .eof] : List (Except Err Bytes)) = done.map .ok ++ List.replicate k (.error .eof) ∧ (0 < k → todo = []) :=
  C125_both_sides [⟨1, 3, .accIn⟩] ⟨by decide, by decide, by decide, by decide⟩ (fun k => if k = 1 then some (.other 7) else none)
    [[[4], [5], [5]]] [0, 0, 0, 0, 0, 0, 0, 0] (by
      refine ⟨?_, ?_, ?_, ?_, ?_, ?_, ?_, ?_, trivial⟩ <;>
      · intro j w hj hw
        match j, hw, hj with
        | 0, hw, hj => exact absurd rfl hj
        | _ + 1, hw, _ => cases hw)
    ⟨[⟨none, [], [none, some (.other 7), none]⟩], [(0, ⟨1, 0, [4, 0]⟩, none), (0, ⟨1, 0, [5, 0]⟩, some (.other 7)), (0, ⟨1, 0, [5, 0]⟩, none)],
      false⟩ rfl ⟨rfl, by simp⟩ (fun _ n => 2 * n) 2 [1, 1, 0, 0, 1, 1]
    ⟨[false, false], _, [], [.call 1, .read 1 (.ok ⟨1, 0, [4, 0]⟩) (some (.ok [4, 0])), .call 0, .read 0 (.ok ⟨1, 0, [5, 0]⟩) (some (.ok [5, 0])),
      .call 1, .read 1 (.error .eof) (some (.error .eof))], false⟩ rfl (by
    intro a b x i h
    match a, h with
    | [], h => simp at h
    | [_], h => simp only [List.cons_append, List.nil_append, List.cons.injEq] at h; rw [← h.2.1]; rfl
    | [_, _], h => simp at h
    | [_, _, _], h => simp only [List.cons_append, List.nil_append, List.cons.injEq] at h; rw [← h.2.2.2.1]; rfl
    | [_, _, _, _], h => simp at h
    | [_, _, _, _, _], h => simp at h
    | _ :: _ :: _ :: _ :: _ :: _ :: a, h => simp at h)

end Props
