import Verif.Lemmas.EffectsGeneral
import Verif.Lemmas.Serde

/-! The handlers as programs agree with the handlers of Model/Handlers.lean when the device has no surprises. -/

set_option linter.unusedSimpArgs false

namespace Ipod.Effects
open Go Spec.Effects

/-- Running on a state. -/
def exec {σ : Type} (D : Device σ) (clock : Clock) {α : Type} : Prog α → Ctx σ → α × Ctx σ
  | .ret a, c => (a, c)
  | .call x k, c => exec D clock (k (plainRes D clock c x)) (plainStep D c x)

theorem run_plain {σ : Type} (D : Device σ) (clock : Clock) (c0 : Ctx σ) {α : Type} (p : Prog α) : ∀ (h : List Event),
    ∃ es, p.run (plain D clock c0) h = (es, some (exec D clock p (plainAfter D c0 h)).1) ∧
      plainAfter D c0 es = (exec D clock p (plainAfter D c0 h)).2 := by
  induction p with
  | ret a => intro h; exact ⟨h, rfl, rfl⟩
  | call x k ih =>
    intro h
    obtain ⟨es, h1, h2⟩ := ih (plainRes D clock (plainAfter D c0 h) x) (h ++ [⟨x, some (plainRes D clock (plainAfter D c0 h) x)⟩])
    have hs : plainAfter D c0 (h ++ [⟨x, some (plainRes D clock (plainAfter D c0 h) x)⟩]) = plainStep D (plainAfter D c0 h) x := by
      simp only [plainAfter, List.foldl_append, List.foldl_cons, List.foldl_nil]
    rw [hs] at h1 h2
    exact ⟨es, by rw [Prog.run]; exact h1, h2⟩

theorem exec_bind {σ : Type} (D : Device σ) (clock : Clock) {α β : Type} (p : Prog α) (f : α → Prog β) : ∀ (c : Ctx σ),
    exec D clock (p.bind f) c = exec D clock (f (exec D clock p c).1) (exec D clock p c).2 := by
  induction p with
  | ret a => intro c; rfl
  | call x k ih => intro c; simp only [Prog.bind, exec, ih]

theorem exec_call {σ : Type} (D : Device σ) (clock : Clock) {α : Type} (x : Call) (k : x.Res → Prog α) (c : Ctx σ) :
    exec D clock (.call x k) c = exec D clock (k (plainRes D clock c x)) (plainStep D c x) := rfl

theorem exec_ret {σ : Type} (D : Device σ) (clock : Clock) {α : Type} (a : α) (c : Ctx σ) :
    exec D clock (.ret a) c = (a, c) := rfl

/-- A command added to what was written. -/
def put {σ : Type} (c : Ctx σ) (x : Command) : Ctx σ := { c with out := c.out ++ [x] }

theorem exec_respond {σ : Type} (D : Device σ) (clock : Clock) (req : Command) (t : TypeId) (v : t.Val) (c : Ctx σ) :
    exec D clock (respond req t v) c = ((), put c ⟨t.id, req.trx, .ptr t v⟩) := by
  unfold respond
  rw [lookupID_eq]
  rfl

theorem exec_send {σ : Type} (D : Device σ) (clock : Clock) (t : TypeId) (v : t.Val) (c : Ctx σ) :
    exec D clock (send t v) c =
      ((), put { c with counter := c.counter + 1 } ⟨t.id, some (c.counter + 1).toUInt16, .ptr t v⟩) := by
  unfold send
  rw [lookupID_eq]
  rfl

theorem ctx_respond {σ : Type} (req : Command) (t : TypeId) (v : t.Val) (c : Ctx σ) :
    c.respond req t v = .ret (put c ⟨t.id, req.trx, .ptr t v⟩) := by
  simp only [Ctx.respond, Ipod.respond, buildCommand, lookupID_eq, Out.bind_ret, put]

theorem ctx_send {σ : Type} (t : TypeId) (v : t.Val) (c : Ctx σ) :
    c.send t v = .ret (put { c with counter := c.counter + 1 } ⟨t.id, some (c.counter + 1).toUInt16, .ptr t v⟩) := by
  simp only [Ctx.send, Ipod.send, buildCommand, lookupID_eq, Out.bind_ret, put, trxNext]

theorem exec_setTokens {σ : Type} (D : Device σ) (clock : Clock) (ts : List FIDTokenValue) : ∀ (c : Ctx σ),
    exec D clock (setTokens ts) c = ((), { c with dev := ts.foldl D.setToken c.dev }) := by
  induction ts with
  | nil => intro c; rfl
  | cons t ts ih =>
    intro c
    rw [setTokens, exec_call, ih]
    rfl

/-- All the small things. -/
theorem general_plain {σ : Type} (D : Device σ) (clock : Clock) (req : Command) (c : Ctx σ) :
    Ipod.handleGeneral D req c = .ret (exec D clock (handleGeneral req) c).2 := by
  unfold Ipod.handleGeneral handleGeneral
  match req.payload with
  | .nil => rfl
  | .unknown b => simp only [Ctx.ack, ctx_respond, ack, exec_respond]
  | .ptr (.gen g) v =>
    cases g <;> first
    | rfl
    | (simp only [Ctx.ack, Ctx.ackSuccess, Ctx.ackPending, ctx_respond, ctx_send, ack, ackSuccess, ackPending, exec_respond,
        exec_call, exec_bind, exec_send, exec_setTokens, exec_ret, Out.bind_ret]; done)
    | (simp only [Ctx.ack, Ctx.ackSuccess, Ctx.ackPending, ctx_respond, ctx_send, ack, ackSuccess, ackPending, exec_respond,
        exec_call, exec_bind, exec_send, exec_setTokens, exec_ret, Out.bind_ret]; rfl)
    | (simp only [Ctx.ack, Ctx.ackSuccess, Ctx.ackPending, ctx_respond, ctx_send, ack, ackSuccess, ackPending, exec_respond,
        exec_call, exec_bind, exec_send, exec_setTokens, exec_ret, Out.bind_ret]
       try simp only [plainRes, plainStep]
       repeat' split
       all_goals first
        | rfl
        | (simp only [exec_respond, exec_call, exec_bind, exec_send, exec_ret]; rfl)
        | (simp_all [exec_respond, exec_call, exec_bind, exec_send, exec_ret, plainStep, plainRes, put, trxReset]; done)
        | (simp_all [exec_respond, exec_call, exec_bind, exec_send, exec_ret, plainStep, plainRes, put, trxReset]; rfl))
  | .ptr (.sim _) _ => rfl
  | .ptr (.disp _) _ => rfl
  | .ptr (.ext _) _ => rfl
  | .ptr (.aud _) _ => rfl

theorem ext_plain {σ : Type} (D : Device σ) (clock : Clock) (req : Command) (c : Ctx σ) :
    Ipod.handleExtRemote req c = .ret (exec D clock (handleExtRemote req) c).2 := by
  unfold Ipod.handleExtRemote handleExtRemote
  match req.payload with
  | .nil => rfl
  | .unknown b => rfl
  | .ptr (.ext g) v =>
    cases g <;> first
    | rfl
    | (simp only [Ctx.extAck, Ctx.extFail, ctx_respond, extAck, extFail, exec_respond]; done)
  | .ptr (.sim _) _ => rfl
  | .ptr (.disp _) _ => rfl
  | .ptr (.gen _) _ => rfl
  | .ptr (.aud _) _ => rfl

theorem audio_plain {σ : Type} (D : Device σ) (clock : Clock) (req : Command) (c : Ctx σ) :
    Ipod.handleAudio req c = .ret (exec D clock (handleAudio req) c).2 := by
  unfold Ipod.handleAudio handleAudio
  match req.payload with
  | .nil => rfl
  | .unknown b => rfl
  | .ptr (.aud g) v =>
    cases g <;> first
    | rfl
    | (simp only [ctx_respond, exec_respond]; done)
  | .ptr (.sim _) _ => rfl
  | .ptr (.disp _) _ => rfl
  | .ptr (.gen _) _ => rfl
  | .ptr (.ext _) _ => rfl

theorem stateInfo_time (ty : UInt8) (h : ty ≠ 9) (a b : Time) : dispStateInfo ty a = dispStateInfo ty b := by
  unfold dispStateInfo
  split <;> first | rfl | skip
  rename_i h9
  exact absurd (UInt8.toNat_inj.1 h9) h

theorem state_plain {σ : Type} (D : Device σ) (clock : Clock) (req : Command) (c : Ctx σ) (ty : UInt8) :
    (match dispStateInfo ty (clock c.ticks) with
      | none => Out.ret c
      | some info =>
        let c := if ty = 9 then { c with ticks := c.ticks + 1 } else c
        c.respond req (.disp .RetiPodStateInfo) (ty, info, ())) = .ret (exec D clock (dispState req ty) c).2 := by
  by_cases h9 : ty = 9
  · subst h9
    have e : dispState req 9 = .call .now fun (d : Time) =>
        done (respond req (.disp .RetiPodStateInfo) (9, .dateTime d.year d.month d.day d.hour d.minute, ())) := if_pos rfl
    show Ctx.respond _ _ _ _ = _
    rw [ctx_respond, e, exec_call, done, exec_bind, exec_respond]
    rfl
  · rw [stateInfo_time ty h9 (clock c.ticks) ⟨0, 0, 0, 0, 0⟩]
    match hi : dispStateInfo ty ⟨0, 0, 0, 0, 0⟩ with
    | none =>
      have e : dispState req ty = .ret (some unknownInfoText) := by
        unfold dispState
        rw [if_neg h9]
        simp only [hi]
      rw [e]
      rfl
    | some info =>
      have e : dispState req ty = done (respond req (.disp .RetiPodStateInfo) (ty, info, ())) := by
        unfold dispState
        rw [if_neg h9]
        simp only [hi]
      rw [e]
      simp only [if_neg h9, done]
      rw [ctx_respond, exec_bind, exec_respond]
      rfl

theorem track_plain {σ : Type} (D : Device σ) (clock : Clock) (req : Command) (c : Ctx σ) (ty : UInt8) :
    (match dispTrackInfo ty with
      | none => Out.ret c
      | some info => c.respond req (.disp .RetIndexedPlayingTrackInfo) (ty, info, ())) =
        .ret (exec D clock (dispTrack req ty) c).2 := by
  unfold dispTrack
  cases dispTrackInfo ty with
  | none => rfl
  | some info =>
    simp only [done]
    rw [ctx_respond, exec_bind, exec_respond]
    rfl

theorem disp_plain {σ : Type} (D : Device σ) (clock : Clock) (req : Command) (c : Ctx σ) :
    Ipod.handleDispRemote clock req c = .ret (exec D clock (handleDispRemote req) c).2 := by
  unfold Ipod.handleDispRemote handleDispRemote
  match req.payload with
  | .nil => rfl
  | .unknown b => rfl
  | .ptr (.disp g) v =>
    cases g <;> first
    | rfl
    | (simp only [Ctx.dispAck, ctx_respond, dispAck, done, exec_respond, exec_bind, exec_ret]; done)
    | exact state_plain D clock req c v.1
    | exact track_plain D clock req c v.1
  | .ptr (.sim _) _ => rfl
  | .ptr (.ext _) _ => rfl
  | .ptr (.gen _) _ => rfl
  | .ptr (.aud _) _ => rfl

theorem packet_plain {σ : Type} (D : Device σ) (clock : Clock) (req : Command) (c : Ctx σ) :
    Ipod.handlePacket D clock req c = .ret (exec D clock (handlePacket req) c).2 := by
  unfold Ipod.handlePacket handlePacket
  split
  · have : (if authComplete req.payload = true then Ipod.audioStart c else Out.ret c) =
        .ret (exec D clock (if authComplete req.payload = true then audioStart else .ret ()) c).2 := by
      split
      · rw [Ipod.audioStart, ctx_send, audioStart, exec_send]
      · rfl
    rw [this, Out.bind_ret, general_plain D clock, exec_bind]
  · split
    · rfl
    · split
      · rw [disp_plain D clock, exec_bind]; rfl
      · split
        · exact ext_plain D clock req c
        · split
          · exact audio_plain D clock req c
          · rfl

end Ipod.Effects
