import Verif.Spec.Effects
import Verif.Lemmas.RealRegistry

/-! Lemmas about the handlers as programs that make calls. -/

namespace Ipod.Effects
open Go Spec.Effects

/-- The complete courses of a program. -/
inductive Done {α : Type} : Prog α → List Event → α → Prop
  | ret (a) : Done (.ret a) [] a
  | call (c k r es a) : Done (k r) es a → Done (.call c k) (⟨c, some r⟩ :: es) a

theorem done_ret {α : Type} (a b : α) (es : List Event) : Done (.ret a) es b ↔ es = [] ∧ b = a := by
  constructor
  · intro h; cases h; exact ⟨rfl, rfl⟩
  · rintro ⟨rfl, rfl⟩; exact .ret _

theorem done_call {α : Type} (c : Call) (k : c.Res → Prog α) (es : List Event) (b : α) :
    Done (.call c k) es b ↔ ∃ r es', es = ⟨c, some r⟩ :: es' ∧ Done (k r) es' b := by
  constructor
  · intro h; cases h with | call _ _ r es _ h => exact ⟨r, es, rfl, h⟩
  · rintro ⟨r, es', rfl, h⟩; exact .call _ _ _ _ _ h

theorem done_bind {α β : Type} (p : Prog α) (f : α → Prog β) : ∀ (es : List Event) (b : β),
    Done (p.bind f) es b ↔ ∃ es1 a es2, es = es1 ++ es2 ∧ Done p es1 a ∧ Done (f a) es2 b := by
  induction p with
  | ret a =>
    intro es b
    simp only [Prog.bind]
    constructor
    · intro h; exact ⟨[], a, es, rfl, .ret _, h⟩
    · rintro ⟨es1, a', es2, rfl, h1, h2⟩
      obtain ⟨rfl, rfl⟩ := (done_ret _ _ _).1 h1
      exact h2
  | call c k ih =>
    intro es b
    simp only [Prog.bind]
    rw [done_call]
    constructor
    · rintro ⟨r, es', rfl, h⟩
      obtain ⟨es1, a, es2, rfl, h1, h2⟩ := (ih r es' b).1 h
      exact ⟨_ :: es1, a, es2, rfl, .call _ _ _ _ _ h1, h2⟩
    · rintro ⟨es1, a, es2, rfl, h1, h2⟩
      obtain ⟨r, es', rfl, h⟩ := (done_call _ _ _ _).1 h1
      exact ⟨r, es' ++ es2, rfl, (ih r _ b).2 ⟨es', a, es2, rfl, h, h2⟩⟩

/-- The complete courses are what happens with some world. -/
theorem run_done {α : Type} (w : World) (p : Prog α) : ∀ (h : List Event) (es : List Event) (a : α),
    p.run w h = (es, some a) → ∃ es', es = h ++ es' ∧ Done p es' a := by
  induction p with
  | ret a =>
    intro h es b e
    simp only [Prog.run, Prod.mk.injEq, Option.some.injEq] at e
    obtain ⟨rfl, rfl⟩ := e
    exact ⟨[], by simp, .ret _⟩
  | call c k ih =>
    intro h es b e
    rw [Prog.run] at e
    match hw : w h c with
    | none => rw [hw] at e; simp at e
    | some r =>
      rw [hw] at e
      obtain ⟨es', rfl, hd⟩ := ih r _ _ _ e
      exact ⟨⟨c, some r⟩ :: es', by simp, .call _ _ _ _ _ hd⟩

/-- A call that does not come back is the last one. -/
theorem run_stuck {α : Type} (w : World) (p : Prog α) : ∀ (h : List Event) (es : List Event),
    p.run w h = (es, none) → ∃ es' c, es = h ++ es' ++ [⟨c, none⟩] ∧
      ∀ r, ∃ (p' : Prog α), ∀ rest a, Done p' rest a → Done p (es' ++ ⟨c, some r⟩ :: rest) a := by
  induction p with
  | ret a => intro h es e; simp [Prog.run] at e
  | call c k ih =>
    intro h es e
    rw [Prog.run] at e
    match hw : w h c with
    | none =>
      rw [hw] at e
      simp only [Prod.mk.injEq, and_true] at e
      refine ⟨[], c, by rw [← e]; simp, ?_⟩
      intro r
      exact ⟨k r, fun rest a hd => .call _ _ _ _ _ hd⟩
    | some r =>
      rw [hw] at e
      obtain ⟨es', c', rfl, hd⟩ := ih r _ _ e
      refine ⟨⟨c, some r⟩ :: es', c', by simp, ?_⟩
      intro r'
      obtain ⟨p', hp⟩ := hd r'
      exact ⟨p', fun rest a h' => .call _ _ _ _ _ (hp rest a h')⟩

/-- Some result of every call. -/
def someRes : (c : Call) → c.Res
  | .uiMode => (0 : UInt8)
  | .name => ([] : Bytes)
  | .softwareVersion => ((0, 0, 0) : UInt8 × UInt8 × UInt8)
  | .serialNum => ([] : Bytes)
  | .lingoProtocolVersion _ => ((0, 0) : UInt8 × UInt8)
  | .lingoOptions _ => (0 : UInt64)
  | .prefSettingID _ => (0 : UInt8)
  | .setToken _ => (none : Option Err)
  | .eventNotificationMask => (0 : UInt64)
  | .supportedEventNotificationMask => (0 : UInt64)
  | .maxPayload => (0 : UInt16)
  | .playbackStatus => ((0, 0, 0) : UInt32 × UInt32 × UInt8)
  | .writeCommand _ => (none : Option Err)
  | .now => (⟨0, 0, 0, 0, 0⟩ : Time)
  | .trxNext => (0 : UInt16)
  | .certBytes => ([] : Bytes)
  | .setUIMode _ => ()
  | .setPrefSettingID _ _ _ => ()
  | .startIDPS => ()
  | .endIDPS _ => ()
  | .accAuthCert _ => ()
  | .setEventNotificationMask _ => ()
  | .cancelCommand _ _ _ => ()
  | .trxReset => ()
  | .certReset => ()
  | .certWrite _ => ()

theorem some_done {α : Type} (p : Prog α) : ∃ es a, Done p es a := by
  induction p with
  | ret a => exact ⟨_, _, .ret a⟩
  | call c k ih =>
    obtain ⟨es, a, h⟩ := ih (someRes c)
    exact ⟨_, _, .call _ _ _ _ _ h⟩

/-- The world that returns what it did in a given course. -/
def again (es : List Event) : World := fun h c =>
  match es[h.length]? with
  | none => none
  | some ev => if e : ev.call = c then e ▸ ev.res else none

theorem done_run {α : Type} (p : Prog α) (all : List Event) : ∀ (h es : List Event) (a : α), Done p es a →
    all = h ++ es → p.run (again all) h = (all, some a) := by
  induction p with
  | ret a =>
    intro h es b hd e
    obtain ⟨rfl, rfl⟩ := (done_ret _ _ _).1 hd
    simp only [Prog.run, e, List.append_nil]
  | call c k ih =>
    intro h es b hd e
    obtain ⟨r, es', rfl, hd'⟩ := (done_call _ _ _ _).1 hd
    rw [Prog.run]
    have hw : again all h c = some r := by
      simp [again, e]
    rw [hw]
    exact ih r _ es' b hd' (by rw [e]; simp)

theorem stuck_run {α : Type} (p : Prog α) (all : List Event) (c : Call) (r : c.Res) (rest : List Event) : ∀ (h es : List Event)
    (a : α), Done p (es ++ ⟨c, some r⟩ :: rest) a → all = h ++ es → p.run (again all) h = (all ++ [⟨c, none⟩], none) := by
  induction p with
  | ret a =>
    intro h es b hd e
    obtain ⟨h1, _⟩ := (done_ret _ _ _).1 hd
    simp at h1
  | call c' k ih =>
    intro h es b hd e
    cases es with
    | nil =>
      obtain ⟨r', es', e', hd⟩ := (done_call _ _ _ _).1 hd
      simp only [List.nil_append, List.cons.injEq, Event.mk.injEq] at e'
      obtain ⟨⟨rfl, _⟩, _⟩ := e'
      rw [Prog.run]
      have hw : again all h c = none := by simp [again, e]
      rw [hw]
      simp [e]
    | cons x es =>
      obtain ⟨r', es', e', hd⟩ := (done_call _ _ _ _).1 hd
      simp only [List.cons_append, List.cons.injEq] at e'
      obtain ⟨rfl, rfl⟩ := e'
      rw [Prog.run]
      have hw : again all h c' = some r' := by simp [again, e]
      rw [hw]
      exact ih r' _ es b hd (by rw [e]; simp)

theorem runs_iff {α : Type} (p : Prog α) (es : List Event) (a : α) :
    (∃ w, p.run w [] = (es, some a)) ↔ Done p es a := by
  constructor
  · rintro ⟨w, h⟩
    obtain ⟨es', rfl, hd⟩ := run_done w p [] es a h
    simpa using hd
  · intro h
    exact ⟨again es, done_run p es [] es a h (by simp)⟩

theorem stuck_iff {α : Type} (p : Prog α) (es : List Event) :
    (∃ w, p.run w [] = (es, none)) ↔
      ∃ es' c r rest a, es = es' ++ [⟨c, none⟩] ∧ Done p (es' ++ ⟨c, some r⟩ :: rest) a := by
  constructor
  · rintro ⟨w, h⟩
    obtain ⟨es', c, rfl, hd⟩ := run_stuck w p [] es h
    obtain ⟨p', hp⟩ := hd (someRes c)
    obtain ⟨rest, a, hd⟩ := some_done p'
    exact ⟨es', c, _, rest, a, by simp, hp _ _ hd⟩
  · rintro ⟨es', c, r, rest, a, rfl, h⟩
    exact ⟨again es', stuck_run p es' c r rest [] es' a h (by simp)⟩

theorem done_respond (req : Command) (t : TypeId) (v : t.Val) (es : List Event) (u : Unit) :
    Done (respond req t v) es u ↔ ∃ e : Option Err, es = [⟨.writeCommand ⟨t.id, req.trx, .ptr t v⟩, some e⟩] := by
  unfold respond
  rw [lookupID_eq]
  simp only [done_call, done_ret]
  constructor
  · rintro ⟨r, es', rfl, rfl, _⟩; exact ⟨r, rfl⟩
  · rintro ⟨r, rfl⟩; exact ⟨r, [], rfl, rfl, trivial⟩

theorem done_send (t : TypeId) (v : t.Val) (es : List Event) (u : Unit) :
    Done (send t v) es u ↔ ∃ (n : UInt16) (e : Option Err),
      es = [⟨.trxNext, some n⟩, ⟨.writeCommand ⟨t.id, some n, .ptr t v⟩, some e⟩] := by
  unfold send
  rw [lookupID_eq]
  simp only [done_call, done_ret]
  constructor
  · rintro ⟨n, es', rfl, r, es'', rfl, rfl, _⟩; exact ⟨n, r, rfl⟩
  · rintro ⟨n, r, rfl⟩; exact ⟨n, _, rfl, r, _, rfl, rfl, trivial⟩

theorem done_setTokens (ts : List FIDTokenValue) : ∀ (es : List Event) (u : Unit), Done (setTokens ts) es u ↔
    ∃ errs : List (Option Err), errs.length = ts.length ∧ es = (ts.zip errs).map (fun p => got (.setToken p.1) p.2) := by
  induction ts with
  | nil =>
    intro es u
    simp only [setTokens, done_ret]
    constructor
    · rintro ⟨rfl, _⟩; exact ⟨[], rfl, rfl⟩
    · rintro ⟨errs, _, rfl⟩; exact ⟨rfl, trivial⟩
  | cons t ts ih =>
    intro es u
    simp only [setTokens, done_call]
    constructor
    · rintro ⟨r, es', rfl, h⟩
      obtain ⟨errs, hl, rfl⟩ := (ih _ _).1 h
      exact ⟨(r : Option Err) :: errs, congrArg (· + 1) hl, rfl⟩
    · rintro ⟨errs, hl, rfl⟩
      match errs, hl with
      | r :: errs, hl => exact ⟨r, _, rfl, (ih _ _).2 ⟨errs, by simpa using hl, rfl⟩⟩

end Ipod.Effects
