import Verif.Spec.Handlers
import Verif.Lemmas.Serde

/-! Lemmas about the handlers. -/

namespace Ipod
open Go Spec

theorem respond_eq {σ : Type} (c : Ctx σ) (req : Command) (t : TypeId) (v : t.Val) :
    c.respond req t v = .ret { c with out := c.out ++ [⟨t.id, req.trx, .ptr t v⟩] } := by
  simp only [Ctx.respond, respond, buildCommand_ptr]
  rfl

theorem send_eq {σ : Type} (c : Ctx σ) (t : TypeId) (v : t.Val) :
    c.send t v = .ret { c with counter := c.counter + 1,
                               out := c.out ++ [⟨t.id, some (c.counter + 1).toUInt16, .ptr t v⟩] } := by
  simp only [Ctx.send, send, buildCommand_ptr]
  rfl

theorem out_ret_bind {α β : Type} (x : α) (f : α → Out β) : (Out.ret x >>= f) = f x := rfl

/-- What every emitted command satisfies. -/
structure EmitOK (lingo : UInt8) (req : Command) (n : UInt32) (x : Command) : Prop where
  typed : ∃ t v, x.payload = .ptr t v ∧ x.id = t.id ∧ t.lingo = lingo
  fresh : DeviceOriginated req x → x.trx = some (n + 1).toUInt16
  trx : ¬ DeviceOriginated req x → x.trx = req.trx
  ack : ∀ k, AckFor x.payload k → k = req.id.cmdID.toNat % (if lingo = 0x04 then 65536 else 256)
  notStart : x.payload ≠ .ptr (.aud .GetAccSampleRateCaps) ()

/-- Emission by one handler. -/
def Emits {σ : Type} (lingo : UInt8) (req : Command) (c : Ctx σ) (o : Out (Ctx σ)) : Prop :=
  ∃ c', o = .ret c' ∧ ∃ new, c'.out = c.out ++ new ∧ ∀ x ∈ new, EmitOK lingo req c.counter x

theorem emits_none {σ : Type} {lingo : UInt8} {req : Command} {c c' : Ctx σ} (h : c'.out = c.out) :
    Emits lingo req c (.ret c') := ⟨c', rfl, [], by simp [h], by simp⟩

/-- Emission of one response. -/
theorem emits_one {σ : Type} {lingo : UInt8} {req : Command} {c c' : Ctx σ} {x : Command}
    (h : c'.out = c.out ++ [x]) (hx : EmitOK lingo req c.counter x) :
    Emits lingo req c (.ret c') := ⟨c', rfl, [x], h, by simpa using hx⟩

theorem emits_two {σ : Type} {lingo : UInt8} {req : Command} {c c' : Ctx σ} {x y : Command}
    (h : c'.out = c.out ++ [x] ++ [y]) (hx : EmitOK lingo req c.counter x) (hy : EmitOK lingo req c.counter y) :
    Emits lingo req c (.ret c') := ⟨c', rfl, [x, y], by simp [h], by simpa using ⟨hx, hy⟩⟩

theorem ackFor_other {t : TypeId} {v : t.Val} {k : Nat}
    (h : t ≠ .gen .ACK ∧ t ≠ .gen .ACKPending ∧ t ≠ .gen .ACKDataDropped ∧ t ≠ .disp .ACK ∧ t ≠ .ext .ACK ∧
      t ≠ .aud .iPodAck) : ¬ AckFor (.ptr t v) k := by
  intro hk
  generalize hp : Payload.ptr t v = p at hk
  cases hk <;> (injection hp with h1; subst h1; simp at h)

theorem uint8_toNat (x : UInt16) : x.toUInt8.toNat = x.toNat % 256 := by simp

/-- A response that is neither originated nor an acknowledgement. -/
theorem emitOK_reply {lingo : UInt8} {req : Command} {n : UInt32} {t : TypeId} {v : t.Val} (hl : t.lingo = lingo)
    (ha : t ≠ .gen .ACK ∧ t ≠ .gen .ACKPending ∧ t ≠ .gen .ACKDataDropped ∧ t ≠ .disp .ACK ∧ t ≠ .ext .ACK ∧
      t ≠ .aud .iPodAck)
    (ho : t ≠ .aud .GetAccSampleRateCaps ∧ (t = .gen .GetDevAuthenticationInfo → ∀ v, req.payload ≠ .ptr (.gen .EndIDPS) v)) :
    EmitOK lingo req n ⟨t.id, req.trx, .ptr t v⟩ where
  typed := ⟨t, v, rfl, rfl, hl⟩
  fresh := by
    rintro (h | ⟨⟨w, h1⟩, h2⟩)
    · injection h with h; exact absurd h ho.1
    · injection h2 with h2; exact absurd h1 (ho.2 h2 w)
  trx := fun _ => rfl
  ack := fun k hk => absurd hk (ackFor_other ha)
  notStart := fun h => ho.1 (by injection h)

theorem not_originated_ack {req x : Command} {k : Nat} (h : AckFor x.payload k) : ¬ DeviceOriginated req x := by
  rintro (h1 | ⟨_, h1⟩) <;> (rw [h1] at h; generalize hp : Payload.ptr _ _ = p at h; cases h <;> simp at hp)

theorem emitOK_ack {lingo : UInt8} {req : Command} {n : UInt32} {t : TypeId} {v : t.Val} (hl : t.lingo = lingo)
    (k : Nat) (hk : AckFor (.ptr t v) k) (hu : ∀ k', AckFor (.ptr t v) k' → k' = k)
    (he : k = req.id.cmdID.toNat % (if lingo = 0x04 then 65536 else 256)) :
    EmitOK lingo req n ⟨t.id, req.trx, .ptr t v⟩ where
  typed := ⟨t, v, rfl, rfl, hl⟩
  fresh := fun h => absurd h (not_originated_ack hk)
  trx := fun _ => rfl
  ack := fun k' hk' => by rw [hu k' hk', he]
  notStart := fun h => not_originated_ack (req := req) (x := ⟨t.id, req.trx, .ptr t v⟩) hk (.inl h)

theorem ackFor_unique {p : Payload} {k k' : Nat} (h : AckFor p k) (h' : AckFor p k') : k = k' := by
  cases h <;> cases h' <;> rfl

theorem emitOK_genAck (req : Command) (n : UInt32) (s : UInt8) :
    EmitOK 0x00 req n ⟨TypeId.id (.gen .ACK), req.trx, .ptr (.gen .ACK) (s, req.id.cmdID.toUInt8, ())⟩ :=
  emitOK_ack rfl _ (.general _ _) (fun _ h => ackFor_unique h (.general _ _)) (by simp)

theorem emitOK_genPending (req : Command) (n w : UInt32) (s : UInt8) :
    EmitOK 0x00 req n ⟨TypeId.id (.gen .ACKPending), req.trx, .ptr (.gen .ACKPending) (s, req.id.cmdID.toUInt8, w, ())⟩ :=
  emitOK_ack rfl _ (.pending _ _ _) (fun _ h => ackFor_unique h (.pending _ _ _)) (by simp)

theorem emitOK_dispAck (req : Command) (n : UInt32) (s : UInt8) :
    EmitOK 0x03 req n ⟨TypeId.id (.disp .ACK), req.trx, .ptr (.disp .ACK) (s, req.id.cmdID.toUInt8, ())⟩ :=
  emitOK_ack rfl _ (.display _ _) (fun _ h => ackFor_unique h (.display _ _)) (by simp)

theorem emitOK_extAck (req : Command) (n : UInt32) (s : UInt8) :
    EmitOK 0x04 req n ⟨TypeId.id (.ext .ACK), req.trx, .ptr (.ext .ACK) (s, req.id.cmdID, ())⟩ :=
  emitOK_ack rfl _ (.extended _ _) (fun _ h => ackFor_unique h (.extended _ _)) (by
    have := req.id.cmdID.toNat_lt; simp only [if_true]; omega)

/-- The GetDevAuthenticationInfo request sent after EndIDPS. -/
theorem emitOK_getAuth {req : Command} {n : UInt32} (h : ∃ v, req.payload = .ptr (.gen .EndIDPS) v) :
    EmitOK 0x00 req n ⟨TypeId.id (.gen .GetDevAuthenticationInfo), some (n + 1).toUInt16,
      .ptr (.gen .GetDevAuthenticationInfo) ()⟩ where
  typed := ⟨_, _, rfl, rfl, rfl⟩
  fresh := fun _ => rfl
  trx := fun hn => absurd (.inr ⟨h, rfl⟩) hn
  ack := fun k hk => absurd hk (ackFor_other (by simp))
  notStart := by simp

theorem handleGeneral_emits {σ : Type} (D : Device σ) (req : Command) (c : Ctx σ) :
    Emits 0x00 req c (handleGeneral D req c) := by
  unfold handleGeneral
  split
  all_goals try simp only [Ctx.ack, Ctx.ackSuccess, Ctx.ackPending, respond_eq, send_eq, out_ret_bind]
  all_goals repeat' split
  all_goals first
    | exact emits_none rfl
    | exact emits_one rfl (emitOK_genAck _ _ _)
    | exact emits_one rfl (emitOK_reply rfl (by simp) (by simp))
    | exact emits_two rfl (emitOK_genPending _ _ _ _) (emitOK_genAck _ _ _)
    | exact emits_two rfl (emitOK_genAck _ _ _) (emitOK_reply rfl (by simp) (by simp [*]))
    | exact emits_two rfl (emitOK_reply rfl (by simp) (by simp)) (emitOK_reply rfl (by simp) (by simp))
    | exact emits_two rfl (emitOK_reply rfl (by simp) (by simp)) (emitOK_getAuth ⟨_, by assumption⟩)

theorem handleDispRemote_emits {σ : Type} (clock : Clock) (req : Command) (c : Ctx σ) :
    Emits 0x03 req c (handleDispRemote clock req c) := by
  unfold handleDispRemote
  split
  all_goals try simp only [Ctx.dispAck, respond_eq]
  all_goals repeat' split
  all_goals first
    | exact emits_none rfl
    | exact emits_one rfl (emitOK_dispAck _ _ _)
    | exact emits_one rfl (emitOK_reply rfl (by simp) (by simp))

theorem handleExtRemote_emits {σ : Type} (req : Command) (c : Ctx σ) :
    Emits 0x04 req c (handleExtRemote req c) := by
  unfold handleExtRemote
  split
  all_goals try simp only [Ctx.extAck, Ctx.extFail, respond_eq]
  all_goals first
    | exact emits_none rfl
    | exact emits_one rfl (emitOK_extAck _ _ _)
    | exact emits_one rfl (emitOK_reply rfl (by simp) (by simp))

theorem handleAudio_emits {σ : Type} (req : Command) (c : Ctx σ) :
    Emits 0x0A req c (handleAudio req c) := by
  unfold handleAudio
  split
  all_goals try simp only [respond_eq]
  all_goals first
    | exact emits_none rfl
    | exact emits_one rfl (emitOK_reply rfl (by simp) (by simp))

/-- The audio start-up request. -/
def audioStartCmd (n : UInt32) : Command :=
  ⟨TypeId.id (.aud .GetAccSampleRateCaps), some (n + 1).toUInt16, .ptr (.aud .GetAccSampleRateCaps) ()⟩

/-- `handlePacket`: an optional audio start-up request, then the emissions of the lingo's handler. -/
theorem handlePacket_emits {σ : Type} (D : Device σ) (clock : Clock) (cmd : Command) (c : Ctx σ) :
    ∃ c' new, handlePacket D clock cmd c = .ret c' ∧
      c'.out = c.out ++ ((if cmd.id.lingoID = 0x00 ∧ authComplete cmd.payload = true then [audioStartCmd c.counter] else []) ++ new) ∧
      ∀ x ∈ new, EmitOK cmd.id.lingoID cmd c.counter x := by
  unfold handlePacket
  split
  · rename_i hl
    have hl : cmd.id.lingoID = 0x00 := hl
    by_cases ha : authComplete cmd.payload = true
    · rw [if_pos ha, if_pos ⟨hl, ha⟩, audioStart, send_eq, out_ret_bind]
      obtain ⟨c', h1, new, h2, h3⟩ := handleGeneral_emits D cmd { c with counter := c.counter + 1, out := c.out ++ [audioStartCmd c.counter] }
      refine ⟨c', new, h1, by simpa using h2, fun x hx => ?_⟩
      have hx := h3 x hx
      have hno : ¬ DeviceOriginated cmd x := by
        rintro (h | ⟨⟨v, h⟩, _⟩)
        · obtain ⟨t, v, h4, _, h5⟩ := hx.typed
          rw [h] at h4
          injection h4 with h4; subst h4; cases h5
        · rw [h] at ha; cases ha
      exact ⟨by rw [hl]; exact hx.typed, fun h => absurd h hno, hx.trx, by rw [hl]; exact hx.ack, hx.notStart⟩
    · rw [if_neg ha, if_neg (fun h => ha h.2), out_ret_bind]
      obtain ⟨c', h1, new, h2, h3⟩ := handleGeneral_emits D cmd c
      exact ⟨c', new, h1, by simpa using h2, by rw [hl]; exact h3⟩
  · rename_i hl
    have hl : ¬ cmd.id.lingoID = 0x00 := hl
    simp only [hl, false_and, if_false, List.nil_append]
    split
    · exact ⟨c, [], rfl, by simp, by simp⟩
    split
    · rename_i h
      obtain ⟨c', h1, new, h2, h3⟩ := handleDispRemote_emits clock cmd c
      exact ⟨c', new, h1, by simpa using h2, by rw [h]; exact h3⟩
    split
    · rename_i h
      obtain ⟨c', h1, new, h2, h3⟩ := handleExtRemote_emits cmd c
      exact ⟨c', new, h1, by simpa using h2, by rw [h]; exact h3⟩
    split
    · rename_i h
      obtain ⟨c', h1, new, h2, h3⟩ := handleAudio_emits cmd c
      exact ⟨c', new, h1, by simpa using h2, by rw [h]; exact h3⟩
    · exact ⟨c, [], rfl, by simp, by simp⟩

theorem new_unique {σ : Type} {c c' : Ctx σ} {new new' : List Command} (h : c'.out = c.out ++ new)
    (h' : c'.out = c.out ++ new') : new = new' := by
  rw [h] at h'; exact List.append_cancel_left h'

theorem decodePayload_bind {α : Type} {o : Out α} {f : α → Out (Bool × Command × Option Err)} {r : Bool × Command × Option Err}
    (h : (o >>= f) = .ret r) : ∃ x, o = .ret x ∧ f x = .ret r := by
  cases o with
  | panic => cases h
  | ret x => exact ⟨x, rfl, h⟩

theorem unmarshalLingoCmdID_fits {pkt r : Bytes} {id : UInt32} (h : unmarshalLingoCmdID pkt = (.ok id, r)) :
    IdFits id := by
  rw [unmarshalLingoCmdID_eq] at h
  split at h
  · simp at h
  · rename_i l r'
    split at h
    · rename_i hl
      split at h
      · simp at h
      · simp at h
      · simp only [Prod.mk.injEq, Except.ok.injEq] at h
        exact ⟨_, _, h.1.symm, .inl hl⟩
    · split at h
      · simp at h
      · rename_i x _
        simp only [Prod.mk.injEq, Except.ok.injEq] at h
        refine ⟨_, _, h.1.symm, .inr ?_⟩
        have := x.toNat_lt
        simp
        omega

/-- A received command carries its id on the wire width and a payload of the type registered under its id. -/
theorem received_wf {cmd : Command} (h : Received cmd) :
    IdFits cmd.id ∧ ∀ t v, cmd.payload = .ptr t v → cmd.id = t.id := by
  obtain ⟨mode, pkt, mode', err, h⟩ := h
  unfold unmarshalCmd at h
  split at h
  · simp only [Out.ret.injEq, Prod.mk.injEq] at h
    obtain ⟨_, rfl, _⟩ := h
    exact ⟨⟨0, 0, by decide +kernel, .inr (by decide)⟩, by intro t v h; cases h⟩
  · rename_i id r hid
    have hfit : IdFits id := unmarshalLingoCmdID_fits hid
    dsimp only at h
    split at h
    · simp only [Out.ret.injEq, Prod.mk.injEq] at h
      obtain ⟨_, rfl, _⟩ := h
      exact ⟨hfit, by intro t v h; cases h⟩
    · rename_i t hl
      obtain ⟨p, _, h⟩ := decodePayload_bind h
      cases p with
      | error e =>
        simp only [Out.ret.injEq, Prod.mk.injEq] at h
        obtain ⟨_, rfl, _⟩ := h
        exact ⟨hfit, by intro t v h; cases h⟩
      | ok v =>
        simp only [Out.ret.injEq, Prod.mk.injEq] at h
        obtain ⟨_, rfl, _⟩ := h
        refine ⟨hfit, ?_⟩
        intro t' v' h
        injection h with h1; subst h1
        exact (lookup_found hl).symm
    · rename_i t hl
      split at h
      · simp only [Out.ret.injEq, Prod.mk.injEq] at h
        obtain ⟨_, rfl, _⟩ := h
        exact ⟨hfit, by intro t v h; cases h⟩
      · obtain ⟨p, _, h⟩ := decodePayload_bind h
        cases p with
        | error e =>
          simp only [Out.ret.injEq, Prod.mk.injEq] at h
          obtain ⟨_, rfl, _⟩ := h
          exact ⟨hfit, by intro t v h; cases h⟩
        | ok v =>
          simp only [Out.ret.injEq, Prod.mk.injEq] at h
          obtain ⟨_, rfl, _⟩ := h
          refine ⟨hfit, ?_⟩
          intro t' v' h
          injection h with h1; subst h1
          exact (lookup_found hl).symm

/-! ### Effects on the state -/

theorem handleDispRemote_state {σ : Type} (clock : Clock) (req : Command) (c c' : Ctx σ)
    (h : handleDispRemote clock req c = .ret c') :
    c'.dev = c.dev ∧ c'.certBuf = c.certBuf ∧ c'.counter = c.counter := by
  unfold handleDispRemote at h
  split at h
  all_goals try simp only [Ctx.dispAck, respond_eq] at h
  all_goals repeat' split at h
  all_goals (cases h; exact ⟨rfl, rfl, rfl⟩)

theorem handleExtRemote_state {σ : Type} (req : Command) (c c' : Ctx σ) (h : handleExtRemote req c = .ret c') :
    c'.dev = c.dev ∧ c'.certBuf = c.certBuf ∧ c'.counter = c.counter := by
  unfold handleExtRemote at h
  split at h
  all_goals try simp only [Ctx.extAck, Ctx.extFail, respond_eq] at h
  all_goals (cases h; exact ⟨rfl, rfl, rfl⟩)

theorem handleAudio_state {σ : Type} (req : Command) (c c' : Ctx σ) (h : handleAudio req c = .ret c') :
    c'.dev = c.dev ∧ c'.certBuf = c.certBuf ∧ c'.counter = c.counter := by
  unfold handleAudio at h
  split at h
  all_goals try simp only [respond_eq] at h
  all_goals (cases h; exact ⟨rfl, rfl, rfl⟩)

/-- Lingos other than General touch neither device nor certificate nor counter. -/
theorem handlePacket_other {σ : Type} {D : Device σ} {clock : Clock} {cmd : Command} {c c' : Ctx σ}
    (hl : cmd.id.lingoID ≠ 0x00) (h : handlePacket D clock cmd c = .ret c') :
    c'.dev = c.dev ∧ c'.certBuf = c.certBuf ∧ c'.counter = c.counter := by
  unfold handlePacket at h
  rw [if_neg (show ¬ cmd.id.lingoID = lingoGeneralID from hl)] at h
  split at h
  · cases h; exact ⟨rfl, rfl, rfl⟩
  split at h
  · exact handleDispRemote_state _ _ _ _ h
  split at h
  · exact handleExtRemote_state _ _ _ h
  split at h
  · exact handleAudio_state _ _ _ h
  · cases h; exact ⟨rfl, rfl, rfl⟩

/-- The state in which `HandleGeneral` is called. -/
def afterAudio {σ : Type} (cmd : Command) (c : Ctx σ) : Ctx σ :=
  if authComplete cmd.payload then { c with counter := c.counter + 1, out := c.out ++ [audioStartCmd c.counter] } else c

theorem handlePacket_general {σ : Type} (D : Device σ) (clock : Clock) (cmd : Command) (c : Ctx σ)
    (hl : cmd.id.lingoID = 0x00) :
    handlePacket D clock cmd c = handleGeneral D cmd (afterAudio cmd c) := by
  unfold handlePacket afterAudio
  rw [if_pos (show cmd.id.lingoID = lingoGeneralID from hl)]
  split
  · rw [audioStart, send_eq, out_ret_bind]; rfl
  · rfl

theorem afterAudio_state {σ : Type} (cmd : Command) (c : Ctx σ) :
    (afterAudio cmd c).dev = c.dev ∧ (afterAudio cmd c).certBuf = c.certBuf ∧ (afterAudio cmd c).ticks = c.ticks := by
  unfold afterAudio; split <;> exact ⟨rfl, rfl, rfl⟩

theorem foldl_setToken (d : DevGeneral) (ts : List FIDTokenValue) :
    ts.foldl devGeneral.setToken d = { d with tokens := d.tokens ++ ts } := by
  induction ts generalizing d with
  | nil => simp
  | cons t ts ih => rw [List.foldl_cons, ih]; simp [devGeneral]

theorem lingo_of_gen {cmd : Command} (hw : ∀ t v, cmd.payload = .ptr t v → cmd.id = t.id) {t : GenT} {v : (TypeId.gen t).Val}
    (h : cmd.payload = .ptr (.gen t) v) : cmd.id.lingoID = 0x00 := by
  rw [hw _ _ h]; exact lingoID_id _

theorem devGeneral_general (cmd : Command) (c c' : Ctx DevGeneral) (h : handleGeneral devGeneral cmd c = .ret c') :
    c'.dev.uimode = (match remoteSwitch cmd with
      | some true => 1
      | some false => if c.dev.uimode = 1 then 0 else c.dev.uimode
      | none => c.dev.uimode) ∧
    c'.dev.tokens = (if isStartIDPS cmd then [] else c.dev.tokens ++ tokensOf cmd) := by
  unfold handleGeneral at h
  split at h
  all_goals try simp only [Ctx.ack, Ctx.ackSuccess, Ctx.ackPending, respond_eq, send_eq, out_ret_bind] at h
  all_goals repeat' split at h
  all_goals cases h
  all_goals first
    | (simp only [remoteSwitch, isStartIDPS, tokensOf, *]; simp [devGeneral]; done)
    | (simp only [remoteSwitch, isStartIDPS, tokensOf, foldl_setToken, *]; simp; done)
    | (simp_all [remoteSwitch, isStartIDPS, tokensOf, devGeneral]; done)

/-- The effect of one command on the device of cmd/ipod. -/
theorem devGeneral_step {clock : Clock} {cmd : Command} {c c' : Ctx DevGeneral}
    (hw : ∀ t v, cmd.payload = .ptr t v → cmd.id = t.id) (h : handlePacket devGeneral clock cmd c = .ret c') :
    c'.dev.uimode = (match remoteSwitch cmd with
      | some true => 1
      | some false => if c.dev.uimode = 1 then 0 else c.dev.uimode
      | none => c.dev.uimode) ∧
    c'.dev.tokens = (if isStartIDPS cmd then [] else c.dev.tokens ++ tokensOf cmd) := by
  by_cases hl : cmd.id.lingoID = 0x00
  · rw [handlePacket_general _ _ _ _ hl] at h
    have := devGeneral_general _ _ _ h
    rwa [(afterAudio_state cmd c).1] at this
  · rw [(handlePacket_other hl h).1]
    have hn : ∀ (t : GenT) v, cmd.payload ≠ .ptr (.gen t) v := fun t v hp => hl (lingo_of_gen hw hp)
    refine ⟨?_, ?_⟩
    · unfold remoteSwitch
      split <;> first | rfl | (rename_i h; exfalso; split at h <;> first | exact hn _ _ ‹_› | cases h)
    · have e1 : isStartIDPS cmd = false := by
        unfold isStartIDPS; split
        · exact absurd ‹_› (hn _ _)
        · rfl
      have e2 : tokensOf cmd = [] := by
        unfold tokensOf; split
        · exact absurd ‹_› (hn _ _)
        · rfl
      rw [e1, e2]; simp

theorem certSection_some {cmd : Command} {cur max : UInt8} {data : Bytes} (h : certSection cmd = some (cur, max, data)) :
    ∃ major minor, cmd.payload = .ptr (.gen .RetDevAuthenticationInfo) (major, minor, cur, max, data, ()) ∧ major ≥ 2 := by
  unfold certSection at h
  split at h
  · rename_i major minor cur' max' data' u hp
    split at h
    · simp only [Option.some.injEq, Prod.mk.injEq] at h
      obtain ⟨rfl, rfl, rfl⟩ := h
      exact ⟨major, minor, hp, UInt8.le_iff_toNat_le.2 (by simpa)⟩
    · cases h
  · cases h

/-- A section of the certificate: acknowledged, or handed over with the previous ones. -/
theorem general_section {σ : Type} (D : Device σ) (cmd : Command) (c : Ctx σ) (major minor cur max : UInt8) (data : Bytes)
    (hp : cmd.payload = .ptr (.gen .RetDevAuthenticationInfo) (major, minor, cur, max, data, ())) (hm : major ≥ 2) :
    let buf := (if cur = 0 then [] else c.certBuf) ++ data
    handleGeneral D cmd c =
      if cur < max then
        .ret { c with certBuf := buf, out := c.out ++
          [⟨TypeId.id (.gen .ACK), cmd.trx, .ptr (.gen .ACK) (ackStatusSuccess, cmd.id.cmdID.toUInt8, ())⟩] }
      else
        .ret { c with certBuf := buf, dev := D.accAuthCert c.dev buf, out := c.out ++
          [⟨TypeId.id (.gen .AckDevAuthenticationInfo), cmd.trx, .ptr (.gen .AckDevAuthenticationInfo) (0x00, ())⟩,
           ⟨TypeId.id (.gen .GetDevAuthenticationSignatureV2), cmd.trx,
            .ptr (.gen .GetDevAuthenticationSignatureV2) (⟨List.replicate 20 0, rfl⟩, 0, ())⟩] } := by
  simp only [handleGeneral, hp, if_pos hm, Ctx.ackSuccess, respond_eq, out_ret_bind]
  by_cases h0 : cur = 0 <;> by_cases h1 : cur < max <;> simp [h0, h1]

theorem recording_none {σ : Type} (D : Device σ) (cmd : Command) (c c' : Ctx (σ × List Bytes))
    (hn : certSection cmd = none) (h : handleGeneral (recording D) cmd c = .ret c') :
    c'.certBuf = c.certBuf ∧ c'.dev.2 = c.dev.2 := by
  have ft : ∀ (ts : List FIDTokenValue) (d : σ × List Bytes), (ts.foldl (recording D).setToken d).2 = d.2 := by
    intro ts
    induction ts with
    | nil => intro d; rfl
    | cons t ts ih => intro d; rw [List.foldl_cons, ih]; rfl
  unfold handleGeneral at h
  split at h
  case h_13 major _ _ _ _ _ heq =>
    have hm : ¬ major ≥ 2 := by
      intro hm
      rw [certSection, heq] at hn
      simp only at hn
      rw [if_pos (by simpa using UInt8.le_iff_toNat_le.1 hm)] at hn
      cases hn
    rw [if_neg hm, respond_eq] at h
    cases h; exact ⟨rfl, rfl⟩
  all_goals try simp only [Ctx.ack, Ctx.ackSuccess, Ctx.ackPending, respond_eq, send_eq, out_ret_bind] at h
  all_goals repeat' split at h
  all_goals cases h
  all_goals first
    | exact ⟨rfl, rfl⟩
    | exact ⟨rfl, ft _ _⟩

end Ipod
