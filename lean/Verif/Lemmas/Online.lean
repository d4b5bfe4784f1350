import Verif.Model.Online
import Verif.Lemmas.Hid

namespace Ipod
open Go Hid Spec

/-- The server continuing with the loop of `ReadFrame` in progress. -/
def rest {σ : Type} (D : Device σ) (clock : Clock) (grow : Growth) (defs : List ReportDef) (n : Nat)
    (rs : List (Except Err Report)) (buf : Slice) (s : Srv σ) : Out (Srv σ × List Bytes) :=
  readFrameLoop grow defs rs buf >>= fun x =>
  frameReads grow defs n x.1 x.2.1 >>= fun more => processFrames D clock (x.2.2 :: more) s

theorem frameReads_total {grow : Growth} {defs : List ReportDef} (hd : ∀ d ∈ defs, 0 ≤ d.maxPayload) (n : Nat)
    (rs : List (Except Err Report)) (buf : Slice) : ∃ xs, frameReads grow defs n rs buf = .ret xs := by
  have loop : ∀ (rs : List (Except Err Report)) buf, ∃ x, readFrameLoop grow defs rs buf = .ret x := by
    intro rs
    induction rs with
    | nil => intro buf; exact ⟨_, rfl⟩
    | cons r rs ih =>
      intro buf
      cases r with
      | error e => exact ⟨_, rfl⟩
      | ok r =>
        cases hf : find defs r.id.toNat with
        | none => exact ⟨_, by simp only [readFrameLoop, hf]; rfl⟩
        | some d =>
          have hm : 0 ≤ d.maxPayload := hd d (by
            obtain ⟨pre, post, h, _⟩ := find_some.1 hf
            rw [h]; simp)
          rw [readFrameLoop_accepted grow defs r _ (accepted_iff.2 ⟨d, hf, hm, rfl⟩)]
          simp only
          split
          · exact ⟨_, rfl⟩
          · exact ih _
  induction n generalizing rs buf with
  | zero => exact ⟨_, rfl⟩
  | succ n ih =>
    obtain ⟨x, hx⟩ := loop rs buf.reset
    obtain ⟨xs, hxs⟩ := ih x.1 x.2.1
    exact ⟨x.2.2 :: xs, by simp only [frameReads, readFrame, hx, Out.bind_ret, hxs]⟩

/-- The result of a run: state and frames written. -/
def outcome {σ : Type} (x : Out (Live σ × Bool)) : Out (Srv σ × List Bytes) := x >>= fun y => .ret (y.1.srv, y.1.written)

/-- `w` has been written before. -/
def after {σ : Type} (w : List Bytes) (x : Out (Srv σ × List Bytes)) : Out (Srv σ × List Bytes) :=
  x >>= fun y => .ret (y.1, w ++ y.2)

/-- The frames are still to be read. -/
def batch {σ : Type} (D : Device σ) (clock : Clock) (grow : Growth) (defs : List ReportDef) (n : Nat)
    (rs : List (Except Err Report)) (buf : Slice) (s : Srv σ) : Out (Srv σ × List Bytes) :=
  frameReads grow defs n rs buf >>= fun fs => processFrames D clock fs s

theorem Out.bind_assoc' {α β γ : Type} (x : Out α) (f : α → Out β) (g : β → Out γ) :
    (x >>= f) >>= g = x >>= fun a => f a >>= g := by cases x <;> rfl

theorem batch_rest {σ : Type} {D : Device σ} {clock : Clock} {grow : Growth} {defs : List ReportDef} (n : Nat)
    (rs : List (Except Err Report)) (buf : Slice) (s : Srv σ) :
    batch D clock grow defs (n + 1) rs buf s = rest D clock grow defs n rs buf.reset s := by
  simp only [batch, rest, frameReads, readFrame, Out.bind_assoc', Out.bind_ret]

theorem onRead_accepted {σ : Type} (D : Device σ) (clock : Clock) (grow : Growth) (defs : List ReportDef) {x : ReadRes}
    {r : Report} (hx : rawReadReport x = .ok r) {b : Bytes} (h : Accepted defs r b) (l : Live σ) :
    l.onRead D clock grow defs x =
      let buf1 := if Starts r then l.buf.reset.write grow b else if Known r then l.buf.write grow b else l.buf
      if Ends r then l.frame D clock buf1 >>= fun l => .ret (some l) else .ret (some { l with buf := buf1 }) := by
  obtain ⟨d, h1, h2, rfl⟩ := accepted_iff.1 h
  rw [Live.onRead, hx]
  simp only [h1]
  rw [if_neg (by omega), Nat.min_comm r.data.length, ← List.take_eq_take_min]
  by_cases c0 : r.linkControl = 0x00
  · have s : Starts r := .inl c0
    have e : Ends r := .inl c0
    simp only [if_pos s, if_pos e]
    rw [if_pos c0]
  rw [if_neg c0]
  by_cases c2 : r.linkControl = 0x02
  · have s : Starts r := .inr c2
    have e : ¬ Ends r := by unfold Ends; rw [c2]; decide
    simp only [if_pos s, if_neg e]
    rw [if_pos c2]
  rw [if_neg c2]
  have s : ¬ Starts r := fun h => h.elim c0 c2
  simp only [if_neg s]
  by_cases c3 : r.linkControl = linkControlContinue ||| linkControlMoreToFollow
  · have e : ¬ Ends r := by unfold Ends; rw [c3]; decide
    have k : Known r := by unfold Known; rw [c3]; decide
    simp only [if_neg e, if_pos k]
    rw [if_pos c3]
  rw [if_neg c3]
  by_cases c1 : r.linkControl = 0x01
  · have e : Ends r := .inr c1
    have k : Known r := by unfold Known; rw [c1]; decide
    simp only [if_pos e, if_pos k]
    rw [if_pos c1]
  rw [if_neg c1]
  have e : ¬ Ends r := fun h => h.elim c0 c1
  have k : ¬ Known r := by
    unfold Known
    intro hk
    have : r.linkControl.toNat = 0 ∨ r.linkControl.toNat = 1 ∨ r.linkControl.toNat = 2 ∨ r.linkControl.toNat = 3 := by omega
    rcases this with h | h | h | h
    · exact c0 (UInt8.toNat_inj.1 h)
    · exact c1 (UInt8.toNat_inj.1 h)
    · exact c2 (UInt8.toNat_inj.1 h)
    · exact c3 (UInt8.toNat_inj.1 (h.trans (by decide)))
  simp only [if_neg e, if_neg k]

theorem run_rest {σ : Type} (D : Device σ) (clock : Clock) (grow : Growth) {defs : List ReportDef}
    (hd : ∀ d ∈ defs, 0 ≤ d.maxPayload) (rs : List ReadRes) :
    ∀ (n : Nat) (_ : rs.length ≤ n + 1) (buf : Slice) (s : Srv σ) (w : List Bytes),
      outcome (Live.run D clock grow defs rs ⟨buf, s, w⟩) = after w (rest D clock grow defs n (rs.map rawReadReport) buf s) := by
  have eof : ∀ (n : Nat) (rs' : List (Except Err Report)) (buf : Slice) (s : Srv σ) (w : List Bytes),
      after w (frameReads grow defs n rs' buf >>= fun more => processFrames D clock (.error .eof :: more) s) = .ret (s, w) := by
    intro n rs' buf s w
    obtain ⟨xs, hx⟩ := frameReads_total (grow := grow) hd n rs' buf
    simp only [hx, Out.bind_ret, processFrames, after, List.append_nil]
  induction rs with
  | nil =>
    intro n _ buf s w
    simp only [List.map_nil, rest, readFrameLoop, Out.bind_ret, eof, Live.run, outcome]
  | cons r rs ih =>
    intro n hn buf s w
    have next : ∀ (buf : Slice) (s : Srv σ) (w : List Bytes),
        outcome (Live.run D clock grow defs rs ⟨buf.reset, s, w⟩) =
          after w (batch D clock grow defs n (rs.map rawReadReport) buf s) := by
      intro buf s w
      cases n with
      | zero =>
        have : rs = [] := List.length_eq_zero_iff.1 (by simp only [List.length_cons] at hn; omega)
        subst this
        simp only [Live.run, outcome, Out.bind_ret, batch, frameReads, processFrames, after, List.append_nil]
      | succ n => rw [batch_rest]; exact ih n (by simp only [List.length_cons] at hn; omega) _ _ _
    have skip : ∀ (e : Err) (_ : e ≠ .eof) (buf : Slice),
        (frameReads grow defs n (rs.map rawReadReport) buf >>= fun more => processFrames D clock (.error e :: more) s) =
          batch D clock grow defs n (rs.map rawReadReport) buf s := by
      intro e he buf
      unfold batch
      congr 1; funext more
      cases e <;> first | exact absurd rfl he | rfl
    match hr : rawReadReport r with
    | .error e =>
      by_cases he : e = .eof
      · subst he
        have h1 : Live.onRead D clock grow defs (⟨buf, s, w⟩ : Live σ) r = .ret none := by
          rw [Live.onRead, hr]; exact if_pos rfl
        simp only [Live.run, h1, Out.bind_ret, outcome, List.map_cons, hr, rest, readFrameLoop, eof]
      · have h1 : Live.onRead D clock grow defs (⟨buf, s, w⟩ : Live σ) r = .ret (some ⟨buf.reset, s, w⟩) := by
          rw [Live.onRead, hr]; exact if_neg he
        simp only [Live.run, h1, Out.bind_ret, List.map_cons, hr, rest, readFrameLoop, skip e he, next]
    | .ok report =>
      cases hf : find defs report.id.toNat with
      | none =>
        have h1 : Live.onRead D clock grow defs (⟨buf, s, w⟩ : Live σ) r = .ret (some ⟨buf.reset, s, w⟩) := by
          rw [Live.onRead, hr]; simp only [hf]
        simp only [Live.run, h1, Out.bind_ret, List.map_cons, hr, rest, readFrameLoop, hf,
          skip Err.noReport (by simp [Err.noReport]), next]
      | some d =>
        have hm : 0 ≤ d.maxPayload := hd d (by
          obtain ⟨pre, post, h, _⟩ := find_some.1 hf
          rw [h]; simp)
        have ha : Accepted defs report (report.data.take d.maxPayload.toNat) := accepted_iff.2 ⟨d, hf, hm, rfl⟩
        rw [Live.run, onRead_accepted D clock grow defs hr ha, List.map_cons, hr, rest,
          readFrameLoop_accepted grow defs report _ ha]
        simp only
        generalize (if Starts report then buf.reset.write grow (report.data.take d.maxPayload.toNat)
          else if Known report then buf.write grow (report.data.take d.maxPayload.toNat) else buf) = buf1
        by_cases he : Ends report
        · simp only [if_pos he, Out.bind_ret, Live.frame, processFrames]
          obtain ⟨xs, hx⟩ := frameReads_total (grow := grow) hd n (rs.map rawReadReport) buf1
          cases hp : processFrame D clock s buf1 with
          | panic => simp only [hx, Out.bind_ret, Out.bind_panic, outcome, after]
          | ret y =>
            simp only [Out.bind_ret, next, batch, hx, after, Out.bind_assoc', List.append_assoc]
        · simp only [if_neg he, Out.bind_ret]
          exact ih n (by simp only [List.length_cons] at hn; omega) _ _ _

end Ipod
