import Verif.Spec.Repeat
import Verif.Spec.Afresh
import Verif.Lemmas.Grouping

/-! # Property C96: requests made twice -/

namespace Props
open Go Spec Ipod

/-- A request that leaves the context as it was has the same answers again, and leaves it again. -/
theorem same_again {σ : Type} {D : Device σ} {clock : Clock} {cmd : Command} {c c1 c2 : Ctx σ} {new new2 : List Command}
    (h1 : Handles D clock cmd c c1 new) (hs : c1 = { c with out := c1.out }) (h2 : Handles D clock cmd c1 c2 new2) :
    new2 = new ∧ c2 = { c1 with out := c2.out } := by
  obtain ⟨h1, o1⟩ := h1
  obtain ⟨h2, o2⟩ := h2
  have e : c = Ctx.pre c.out { c with out := [] } := by simp [Ctx.pre]
  have e1 : c1 = Ctx.pre (c.out ++ new) { c with out := [] } := by rw [hs, o1]; simp [Ctx.pre]
  obtain ⟨x, new0, hx, ho, _⟩ := handlePacket_emits D clock cmd { c with out := [] }
  rw [e, handlePacket_pre, hx, Out.bind_ret] at h1
  rw [e1, handlePacket_pre, hx, Out.bind_ret] at h2
  cases h1
  cases h2
  simp only [Ctx.pre, List.append_cancel_left_eq] at o1
  subst o1
  refine ⟨?_, ?_⟩
  · rw [e1] at o2
    simpa [Ctx.pre] using o2.symm
  · rfl

/-- The kinds of requests that change the context. -/
def special : List TypeId := [.gen .EnterRemoteUIMode, .gen .ExitRemoteUIMode, .gen .RetDevAuthenticationInfo, .gen .StartIDPS,
  .gen .SetFIDTokenValues, .gen .EndIDPS, .disp .GetiPodStateInfo]

theorem plain_state {clock : Clock} {cmd : Command} {c c1 : Ctx DevGeneral} (hn : ∀ t v, cmd.payload = .ptr t v → t ∉ special)
    (h : handlePacket devGeneral clock cmd c = .ret c1) : c1 = { c with out := c1.out } := by
  rcases handlePacket_of_lingo h with ⟨e, h1⟩ | ⟨e, h1⟩ | ⟨e, h1⟩ | ⟨e, h1⟩ | ⟨e, rfl⟩
  · have : afterAudio cmd c = c := by
      unfold afterAudio
      rw [if_neg]
      intro ha
      unfold authComplete at ha
      split at ha
      · exact hn _ _ ‹_› (by simp [special])
      · cases ha
    rw [this] at h1
    unfold handleGeneral at h1
    split at h1
    all_goals rename_i hq
    all_goals try simp only [Ctx.ack, Ctx.ackSuccess, Ctx.ackPending, respond_eq, send_eq, out_ret_bind] at h1
    all_goals repeat' split at h1
    all_goals cases h1
    all_goals first
      | rfl
      | exact (hn _ _ hq (by simp [special])).elim
  · unfold handleDispRemote at h1
    split at h1
    all_goals rename_i hq
    all_goals try simp only [Ctx.dispAck, respond_eq] at h1
    all_goals repeat' split at h1
    all_goals cases h1
    all_goals first
      | rfl
      | exact (hn _ _ hq (by simp [special])).elim
  · unfold handleExtRemote at h1
    split at h1
    all_goals try simp only [Ctx.extAck, Ctx.extFail, respond_eq] at h1
    all_goals cases h1
    all_goals rfl
  · unfold handleAudio at h1
    split at h1
    all_goals try simp only [respond_eq] at h1
    all_goals cases h1
    all_goals rfl
  · rfl

theorem accumulates_special {cmd : Command} (h : Accumulates cmd) : ∃ t v, cmd.payload = .ptr t v ∧ t ∈ special := by
  cases h with
  | tokens ts u h _ => exact ⟨_, _, h, by simp [special]⟩
  | part _ _ _ _ _ _ h _ _ => exact ⟨_, _, h, by simp [special]⟩
  | complete _ _ _ _ _ _ h _ => exact ⟨_, _, h, by simp [special]⟩
  | identified _ h => exact ⟨_, _, h, by simp [special]⟩

theorem anew_special {clock : Clock} {c : Ctx DevGeneral} {cmd : Command} (h : AnsweredAnew clock c cmd) :
    ∃ t v, cmd.payload = .ptr t v ∧ t ∈ special := by
  cases h with
  | enter _ h _ => exact ⟨_, _, h, by simp [special]⟩
  | exit _ h _ => exact ⟨_, _, h, by simp [special]⟩
  | complete _ _ _ _ _ _ h _ => exact ⟨_, _, h, by simp [special]⟩
  | identified _ h => exact ⟨_, _, h, by simp [special]⟩
  | time _ h _ => exact ⟨_, _, h, by simp [special]⟩

/-- Of a request of one kind, the cases of the other kinds are void. -/
theorem accumulates_enter {cmd : Command} {v} (h : cmd.payload = .ptr (.gen .EnterRemoteUIMode) v) : ¬ Accumulates cmd := by
  rintro (⟨_, _, h', _⟩ | ⟨_, _, _, _, _, _, h', _⟩ | ⟨_, _, _, _, _, _, h', _⟩ | ⟨_, h'⟩) <;> rw [h] at h' <;> cases h'

theorem accumulates_exit {cmd : Command} {v} (h : cmd.payload = .ptr (.gen .ExitRemoteUIMode) v) : ¬ Accumulates cmd := by
  rintro (⟨_, _, h', _⟩ | ⟨_, _, _, _, _, _, h', _⟩ | ⟨_, _, _, _, _, _, h', _⟩ | ⟨_, h'⟩) <;> rw [h] at h' <;> cases h'

theorem accumulates_start {cmd : Command} {v} (h : cmd.payload = .ptr (.gen .StartIDPS) v) : ¬ Accumulates cmd := by
  rintro (⟨_, _, h', _⟩ | ⟨_, _, _, _, _, _, h', _⟩ | ⟨_, _, _, _, _, _, h', _⟩ | ⟨_, h'⟩) <;> rw [h] at h' <;> cases h'

theorem accumulates_time {cmd : Command} {v} (h : cmd.payload = .ptr (.disp .GetiPodStateInfo) v) : ¬ Accumulates cmd := by
  rintro (⟨_, _, h', _⟩ | ⟨_, _, _, _, _, _, h', _⟩ | ⟨_, _, _, _, _, _, h', _⟩ | ⟨_, h'⟩) <;> rw [h] at h' <;> cases h'

/-- What handling a request of the General lingo that is not the end of a certificate comes to. -/
theorem general_once {clock : Clock} {cmd : Command} {c c' : Ctx DevGeneral} {new : List Command} {t : GenT} {v : (TypeId.gen t).Val}
    (hr : Received cmd) (hp : cmd.payload = .ptr (.gen t) v) (ha : authComplete cmd.payload = false)
    (h : Handles devGeneral clock cmd c c' new) : handleGeneral devGeneral cmd c = .ret c' := by
  have := handles_general hr h hp
  rwa [afterAudio, ha, if_neg (by simp)] at this

theorem twice_enter {clock : Clock} {cmd : Command} {c c1 c2 : Ctx DevGeneral} {new new2 : List Command} (hr : Received cmd) {v}
    (hp : cmd.payload = .ptr (.gen .EnterRemoteUIMode) v) (h1 : Handles devGeneral clock cmd c c1 new)
    (h2 : Handles devGeneral clock cmd c1 c2 new2) :
    (SameState c2 c1 ↔ ¬ Accumulates cmd) ∧ (new2 = new ↔ ¬ AnsweredAnew clock c cmd) := by
  have g1 := general_once hr hp (by rw [hp]; rfl) h1
  have g2 := general_once hr hp (by rw [hp]; rfl) h2
  have hanew : AnsweredAnew clock c cmd ↔ c.dev.uimode ≠ 1 := by
    constructor
    · rintro (⟨_, h', hu⟩ | ⟨_, h', _⟩ | ⟨_, _, _, _, _, _, h', _⟩ | ⟨_, h'⟩ | ⟨_, h', _⟩)
      · exact hu
      all_goals (rw [hp] at h'; cases h')
    · exact fun h => .enter v hp h
  rw [hanew]
  simp only [handleGeneral, hp, Ctx.ackSuccess, Ctx.ackPending, respond_eq, out_ret_bind] at g1
  by_cases hu : devGeneral.uiMode c.dev = uiModeExtended
  · rw [if_pos hu] at g1
    cases g1
    obtain ⟨e1, e2⟩ := same_again h1 rfl h2
    refine ⟨⟨fun _ => accumulates_enter hp, fun _ => ?_⟩, ?_⟩
    · rw [e2]; exact ⟨rfl, rfl, rfl⟩
    · exact ⟨fun _ h => h hu, fun _ => e1⟩
  · rw [if_neg hu] at g1
    cases g1
    simp only [handleGeneral, hp, Ctx.ackSuccess, respond_eq] at g2
    rw [if_pos (show devGeneral.uiMode (devGeneral.setUIMode c.dev uiModeExtended) = uiModeExtended from rfl)] at g2
    cases g2
    refine ⟨⟨fun _ => accumulates_enter hp, fun _ => ⟨rfl, rfl, rfl⟩⟩, ?_⟩
    have e1 := out2 h1.2
    have e2 := out1 h2.2
    subst e1 e2
    constructor
    · intro h; cases h
    · exact fun h => absurd hu h

theorem twice_exit {clock : Clock} {cmd : Command} {c c1 c2 : Ctx DevGeneral} {new new2 : List Command} (hr : Received cmd) {v}
    (hp : cmd.payload = .ptr (.gen .ExitRemoteUIMode) v) (h1 : Handles devGeneral clock cmd c c1 new)
    (h2 : Handles devGeneral clock cmd c1 c2 new2) :
    (SameState c2 c1 ↔ ¬ Accumulates cmd) ∧ (new2 = new ↔ ¬ AnsweredAnew clock c cmd) := by
  have g1 := general_once hr hp (by rw [hp]; rfl) h1
  have g2 := general_once hr hp (by rw [hp]; rfl) h2
  have hanew : AnsweredAnew clock c cmd ↔ c.dev.uimode = 1 := by
    constructor
    · rintro (⟨_, h', hu⟩ | ⟨_, h', hu⟩ | ⟨_, _, _, _, _, _, h', _⟩ | ⟨_, h'⟩ | ⟨_, h', _⟩)
      · rw [hp] at h'; cases h'
      · exact hu
      all_goals (rw [hp] at h'; cases h')
    · exact fun h => .exit v hp h
  rw [hanew]
  simp only [handleGeneral, hp, Ctx.ackSuccess, Ctx.ackPending, respond_eq, out_ret_bind] at g1
  by_cases hu : devGeneral.uiMode c.dev = uiModeExtended
  · rw [if_neg (fun h => h hu)] at g1
    cases g1
    simp only [handleGeneral, hp, Ctx.ackSuccess, respond_eq] at g2
    rw [if_pos (show devGeneral.uiMode (devGeneral.setUIMode c.dev uiModeStandart) ≠ uiModeExtended from
      fun h => absurd (show uiModeStandart = uiModeExtended from h) (by decide))] at g2
    cases g2
    refine ⟨⟨fun _ => accumulates_exit hp, fun _ => ⟨rfl, rfl, rfl⟩⟩, ?_⟩
    have e1 := out2 h1.2
    have e2 := out1 h2.2
    subst e1 e2
    constructor
    · intro h; cases h
    · exact fun h => absurd hu h
  · rw [if_pos hu] at g1
    cases g1
    obtain ⟨e1, e2⟩ := same_again h1 rfl h2
    refine ⟨⟨fun _ => accumulates_exit hp, fun _ => ?_⟩, ?_⟩
    · rw [e2]; exact ⟨rfl, rfl, rfl⟩
    · exact ⟨fun _ h => hu h, fun _ => e1⟩

theorem twice_start {clock : Clock} {cmd : Command} {c c1 c2 : Ctx DevGeneral} {new new2 : List Command} (hr : Received cmd) {v}
    (hp : cmd.payload = .ptr (.gen .StartIDPS) v) (h1 : Handles devGeneral clock cmd c c1 new)
    (h2 : Handles devGeneral clock cmd c1 c2 new2) :
    (SameState c2 c1 ↔ ¬ Accumulates cmd) ∧ (new2 = new ↔ ¬ AnsweredAnew clock c cmd) := by
  have g1 := general_once hr hp (by rw [hp]; rfl) h1
  have g2 := general_once hr hp (by rw [hp]; rfl) h2
  simp only [handleGeneral, hp, Ctx.ackSuccess, respond_eq] at g1
  cases g1
  simp only [handleGeneral, hp, Ctx.ackSuccess, respond_eq] at g2
  cases g2
  have e1 := out1 h1.2
  have e2 := out1 h2.2
  subst e1 e2
  refine ⟨⟨fun _ => accumulates_start hp, fun _ => ⟨rfl, rfl, rfl⟩⟩, fun _ => ?_, fun _ => rfl⟩
  rintro (⟨_, h', hu⟩ | ⟨_, h', hu⟩ | ⟨_, _, _, _, _, _, h', _⟩ | ⟨_, h'⟩ | ⟨_, h', _⟩) <;> rw [hp] at h' <;> cases h'

theorem twice_tokens {clock : Clock} {cmd : Command} {c c1 c2 : Ctx DevGeneral} {new new2 : List Command} (hr : Received cmd) {ts u}
    (hp : cmd.payload = .ptr (.gen .SetFIDTokenValues) (ts, u)) (h1 : Handles devGeneral clock cmd c c1 new)
    (h2 : Handles devGeneral clock cmd c1 c2 new2) :
    (SameState c2 c1 ↔ ¬ Accumulates cmd) ∧ (new2 = new ↔ ¬ AnsweredAnew clock c cmd) := by
  have g1 := general_once hr hp (by rw [hp]; rfl) h1
  have g2 := general_once hr hp (by rw [hp]; rfl) h2
  simp only [handleGeneral, hp, respond_eq, foldl_setToken] at g1
  cases g1
  simp only [handleGeneral, hp, respond_eq, foldl_setToken] at g2
  cases g2
  have e1 := out1 h1.2
  have e2 := out1 h2.2
  subst e1 e2
  have hacc : Accumulates cmd ↔ ts ≠ [] := by
    constructor
    · rintro (⟨_, _, h', hn⟩ | ⟨_, _, _, _, _, _, h', _⟩ | ⟨_, _, _, _, _, _, h', _⟩ | ⟨_, h'⟩)
      · rw [hp] at h'; cases h'; exact hn
      all_goals (rw [hp] at h'; cases h')
    · exact fun h => .tokens ts u hp h
  refine ⟨?_, fun _ => ?_, fun _ => rfl⟩
  · rw [hacc, Classical.not_not]
    simp [SameState]
  · rintro (⟨_, h', hu⟩ | ⟨_, h', hu⟩ | ⟨_, _, _, _, _, _, h', _⟩ | ⟨_, h'⟩ | ⟨_, h', _⟩) <;> rw [hp] at h' <;> cases h'

theorem next_ne (n : UInt32) : (n + 1 + 1).toUInt16 ≠ (n + 1).toUInt16 := by
  intro h
  have := congrArg UInt16.toNat h
  simp at this
  omega

theorem twice_end {clock : Clock} {cmd : Command} {c c1 c2 : Ctx DevGeneral} {new new2 : List Command} (hr : Received cmd) {st u}
    (hp : cmd.payload = .ptr (.gen .EndIDPS) (st, u)) (h1 : Handles devGeneral clock cmd c c1 new)
    (h2 : Handles devGeneral clock cmd c1 c2 new2) :
    (SameState c2 c1 ↔ ¬ Accumulates cmd) ∧ (new2 = new ↔ ¬ AnsweredAnew clock c cmd) := by
  have g1 := general_once hr hp (by rw [hp]; rfl) h1
  have g2 := general_once hr hp (by rw [hp]; rfl) h2
  simp only [handleGeneral, hp, respond_eq, send_eq, out_ret_bind] at g1 g2
  by_cases hst : st = 0x00
  · subst hst
    rw [if_pos rfl] at g1 g2
    cases g1
    cases g2
    refine ⟨⟨?_, fun h => absurd (.identified u hp) h⟩, ⟨?_, fun h => absurd (.identified u hp) h⟩⟩
    · intro h
      have := h.2.2
      simp at this
    · have e1 := out2 h1.2
      have e2 := out2 h2.2
      subst e1 e2
      intro h
      simp only [List.cons.injEq, and_true, true_and, Command.mk.injEq, Option.some.injEq] at h
      exact absurd h (next_ne _)
  · have hs : c1 = { c with out := c1.out } := by
      rw [if_neg hst] at g1
      split at g1
      · cases g1; rfl
      split at g1 <;> cases g1 <;> rfl
    obtain ⟨e1, e2⟩ := same_again h1 hs h2
    refine ⟨⟨fun _ => ?_, fun _ => ?_⟩, fun _ => ?_, fun _ => e1⟩
    · rintro (⟨_, _, h', hn⟩ | ⟨_, _, _, _, _, _, h', _⟩ | ⟨_, _, _, _, _, _, h', _⟩ | ⟨_, h'⟩)
      all_goals (rw [hp] at h'; cases h')
      exact hst rfl
    · rw [e2]; exact ⟨rfl, rfl, rfl⟩
    · rintro (⟨_, h', hu⟩ | ⟨_, h', hu⟩ | ⟨_, _, _, _, _, _, h', _⟩ | ⟨_, h'⟩ | ⟨_, h', _⟩)
      all_goals (rw [hp] at h'; cases h')
      exact hst rfl

theorem twice_time {clock : Clock} {cmd : Command} {c c1 c2 : Ctx DevGeneral} {new new2 : List Command} (hr : Received cmd) {ty u}
    (hp : cmd.payload = .ptr (.disp .GetiPodStateInfo) (ty, u)) (h1 : Handles devGeneral clock cmd c c1 new)
    (h2 : Handles devGeneral clock cmd c1 c2 new2) :
    (SameState c2 c1 ↔ ¬ Accumulates cmd) ∧ (new2 = new ↔ ¬ AnsweredAnew clock c cmd) := by
  have g1 := handles_disp hr h1 hp
  have g2 := handles_disp hr h2 hp
  simp only [handleDispRemote, hp] at g1 g2
  have hanew : AnsweredAnew clock c cmd ↔ ty = 9 ∧ clock c.ticks ≠ clock (c.ticks + 1) := by
    constructor
    · rintro (⟨_, h', hu⟩ | ⟨_, h', hu⟩ | ⟨_, _, _, _, _, _, h', _⟩ | ⟨_, h'⟩ | ⟨_, h', hc⟩)
      all_goals (rw [hp] at h'; cases h')
      exact ⟨rfl, hc⟩
    · rintro ⟨rfl, h⟩; exact .time u hp h
  rw [hanew]
  by_cases h9 : ty = 9
  · subst h9
    have e : ∀ now : Time, dispStateInfo 9 now = some (.dateTime now.year now.month now.day now.hour now.minute) := fun _ => rfl
    simp only [e, if_true, respond_eq] at g1 g2
    cases g1
    cases g2
    have e1 := out1 h1.2
    have e2 := out1 h2.2
    subst e1 e2
    refine ⟨⟨fun _ => accumulates_time hp, fun _ => ⟨rfl, rfl, rfl⟩⟩, ?_⟩
    constructor
    · intro h hn
      simp only [List.cons.injEq, and_true, true_and, Command.mk.injEq, Payload.ptr.injEq, heq_eq_eq, Prod.mk.injEq,
        DispState.dateTime.injEq] at h
      apply hn.2
      generalize clock c.ticks = a at *
      generalize clock (c.ticks + 1) = b at *
      obtain ⟨_, _, _, _, _⟩ := a
      obtain ⟨_, _, _, _, _⟩ := b
      simp_all
    · intro h
      have : clock c.ticks = clock (c.ticks + 1) := Classical.not_not.1 fun hn => h ⟨rfl, hn⟩
      simp only [this]
  · have hs : c1 = { c with out := c1.out } := by
      cases hi : dispStateInfo ty (clock c.ticks) with
      | none => rw [hi] at g1; cases g1; rfl
      | some i =>
        simp only [hi, if_neg h9, respond_eq] at g1
        cases g1; rfl
    obtain ⟨e1, e2⟩ := same_again h1 hs h2
    refine ⟨⟨fun _ => accumulates_time hp, fun _ => ?_⟩, fun _ h => h9 h.1, fun _ => e1⟩
    rw [e2]; exact ⟨rfl, rfl, rfl⟩

theorem twice_cert {clock : Clock} {cmd : Command} {c c1 c2 : Ctx DevGeneral} {new new2 : List Command} (hr : Received cmd)
    {major minor cur max data u} (hp : cmd.payload = .ptr (.gen .RetDevAuthenticationInfo) (major, minor, cur, max, data, u))
    (h1 : Handles devGeneral clock cmd c c1 new) (h2 : Handles devGeneral clock cmd c1 c2 new2) :
    (SameState c2 c1 ↔ ¬ Accumulates cmd) ∧ (new2 = new ↔ ¬ AnsweredAnew clock c cmd) := by
  have g1 := handles_general hr h1 hp
  have g2 := handles_general hr h2 hp
  by_cases hfin : UInt8.toNat major < 2 ∨ UInt8.toNat max ≤ UInt8.toNat cur
  · have ha : authComplete cmd.payload = true := by
      rw [hp, authComplete]
      simp only [decide_eq_true_eq, ge_iff_le, UInt8.le_iff_toNat_le, UInt8.lt_iff_toNat_lt]
      have : (2 : UInt8).toNat = 2 := rfl
      omega
    have hacc : Accumulates cmd := .complete _ _ _ _ _ _ hp hfin
    have hanw : AnsweredAnew clock c cmd := .complete _ _ _ _ _ _ hp hfin
    obtain ⟨x1, n1, e1, o1, _⟩ := handlePacket_emits devGeneral clock cmd c
    obtain ⟨x2, n2, e2, o2, _⟩ := handlePacket_emits devGeneral clock cmd c1
    have hl : cmd.id.lingoID = 0x00 := lingo_of_gen (received_wf hr).2 hp
    rw [h1.1] at e1; cases e1
    rw [h2.1] at e2; cases e2
    rw [if_pos ⟨hl, ha⟩] at o1 o2
    have hcount : ∀ a b : Ctx DevGeneral, handleGeneral devGeneral cmd (afterAudio cmd a) = .ret b → b.counter = a.counter + 1 := by
      intro a b h
      rw [afterAudio, if_pos ha] at h
      simp only [handleGeneral, hp, Ctx.ackSuccess, respond_eq, out_ret_bind] at h
      repeat' split at h
      all_goals (cases h; rfl)
    have k1 := hcount _ _ g1
    have k2 := hcount _ _ g2
    refine ⟨⟨fun h => ?_, fun h => absurd hacc h⟩, fun h => ?_, fun h => absurd hanw h⟩
    · have := h.2.2
      rw [k2] at this
      simp at this
    · have i1 := new_unique h1.2 o1
      have i2 := new_unique h2.2 o2
      rw [i1, i2, k1] at h
      simp only [List.singleton_append, List.cons.injEq, audioStartCmd, Command.mk.injEq, Option.some.injEq] at h
      exact absurd h.1.2.1 (next_ne _)
  · have hmaj : ¬ UInt8.toNat major < 2 := fun h => hfin (.inl h)
    have hlt : UInt8.toNat cur < UInt8.toNat max := by omega
    have ha : authComplete cmd.payload = false := by
      rw [hp, authComplete]
      simp only [decide_eq_false_iff_not, ge_iff_le, UInt8.le_iff_toNat_le, UInt8.lt_iff_toNat_lt]
      have : (2 : UInt8).toNat = 2 := rfl
      omega
    have hm2 : major ≥ 2 := by
      rw [ge_iff_le, UInt8.le_iff_toNat_le]
      have : (2 : UInt8).toNat = 2 := rfl
      omega
    have hcm : cur < max := by rw [UInt8.lt_iff_toNat_lt]; exact hlt
    have hstep : ∀ a b : Ctx DevGeneral, handleGeneral devGeneral cmd (afterAudio cmd a) = .ret b →
        b = { a with certBuf := (if cur = 0 then [] else a.certBuf) ++ data,
                     out := a.out ++ [⟨TypeId.id (.gen .ACK), cmd.trx, .ptr (.gen .ACK) (ackStatusSuccess, cmd.id.cmdID.toUInt8, ())⟩] } := by
      intro a b h
      rw [afterAudio, ha, if_neg (by simp)] at h
      simp only [handleGeneral, hp, Ctx.ackSuccess, respond_eq, out_ret_bind] at h
      rw [if_pos hm2] at h
      rw [if_pos hcm] at h
      cases h
      by_cases h0 : cur = 0
      · simp only [h0, if_true]
      · simp only [h0, if_false]
    have k1 := hstep _ _ g1
    have k2 := hstep _ _ g2
    subst k1
    subst k2
    have e1 := out1 h1.2
    have e2 := out1 h2.2
    subst e1 e2
    have hacc : Accumulates cmd ↔ cur ≠ 0 ∧ data ≠ [] := by
      constructor
      · rintro (⟨_, _, h', hn⟩ | ⟨_, _, _, _, _, _, h', _, ha, hb⟩ | ⟨_, _, _, _, _, _, h', hn⟩ | ⟨_, h'⟩)
        all_goals (rw [hp] at h'; cases h')
        · exact ⟨ha, hb⟩
        · exact absurd hn hfin
      · exact fun h => .part _ _ _ _ _ _ hp (by omega) h.1 h.2
    refine ⟨?_, fun _ => ?_, fun _ => rfl⟩
    · rw [hacc]
      simp only [SameState, true_and, and_true]
      by_cases h0 : cur = 0
      · simp [h0]
      · simp only [h0, if_false, ne_eq, not_false_eq_true, true_and, Classical.not_not]
        constructor
        · intro h
          exact List.append_right_eq_self.1 h
        · rintro rfl; simp
    · rintro (⟨_, h', hu⟩ | ⟨_, h', hu⟩ | ⟨_, _, _, _, _, _, h', hn⟩ | ⟨_, h'⟩ | ⟨_, h', _⟩)
      all_goals (rw [hp] at h'; cases h')
      exact hfin hn

theorem twice {clock : Clock} {cmd : Command} {c c1 c2 : Ctx DevGeneral} {new new2 : List Command} (hr : Received cmd)
    (h1 : Handles devGeneral clock cmd c c1 new) (h2 : Handles devGeneral clock cmd c1 c2 new2) :
    (SameState c2 c1 ↔ ¬ Accumulates cmd) ∧ (new2 = new ↔ ¬ AnsweredAnew clock c cmd) := by
  by_cases hsp : ∃ t v, cmd.payload = .ptr t v ∧ t ∈ special
  · obtain ⟨t, v, hp, ht⟩ := hsp
    simp only [special, List.mem_cons, List.not_mem_nil, or_false] at ht
    rcases ht with rfl | rfl | rfl | rfl | rfl | rfl | rfl
    · exact twice_enter hr hp h1 h2
    · exact twice_exit hr hp h1 h2
    · obtain ⟨a, b, c, d, e, f⟩ := v
      exact twice_cert hr hp h1 h2
    · exact twice_start hr hp h1 h2
    · obtain ⟨a, b⟩ := v
      exact twice_tokens hr hp h1 h2
    · obtain ⟨a, b⟩ := v
      exact twice_end hr hp h1 h2
    · obtain ⟨a, b⟩ := v
      exact twice_time hr hp h1 h2
  · obtain ⟨e1, e2⟩ := same_again h1 (plain_state (fun t v hp ht => hsp ⟨t, v, hp, ht⟩) h1.1) h2
    refine ⟨⟨fun _ h => hsp (accumulates_special h), fun _ => ?_⟩, fun _ h => hsp (anew_special h), fun _ => e1⟩
    rw [e2]; exact ⟨rfl, rfl, rfl⟩

/-- C96, the state. A request made a second time leaves the state of the first time, exactly unless it is one of those that
accumulate. -/
theorem C96_state_iff {clock : Clock} {cmd : Command} {c c1 c2 : Ctx DevGeneral} {new new2 : List Command} (hr : Received cmd)
    (h1 : Handles devGeneral clock cmd c c1 new) (h2 : Handles devGeneral clock cmd c1 c2 new2) :
    SameState c2 c1 ↔ ¬ Accumulates cmd := (twice hr h1 h2).1

/-- C96, the answers. A request made a second time is answered as the first time, exactly unless it is one of those that are
answered anew. -/
theorem C96_answers_iff {clock : Clock} {cmd : Command} {c c1 c2 : Ctx DevGeneral} {new new2 : List Command} (hr : Received cmd)
    (h1 : Handles devGeneral clock cmd c c1 new) (h2 : Handles devGeneral clock cmd c1 c2 new2) :
    new2 = new ↔ ¬ AnsweredAnew clock c cmd := (twice hr h1 h2).2

theorem bind_is_ret {α β : Type} {x : Out α} {f : α → Out β} {b : β} (h : (x >>= f) = .ret b) : ∃ a, f a = .ret b := by
  cases x with
  | ret a => exact ⟨a, h⟩
  | panic => cases h

theorem switch_again (m : Bool) (id : UInt32) : handleCmdID (handleCmdID m id) id = handleCmdID m id := by
  rw [handleCmdID_eq (handleCmdID m id), handleCmdID_eq m]
  split
  · rfl
  · split <;> rfl

/-- A packet decoded a second time is decoded as the first time. -/
theorem decode_again {m m1 : Bool} {p : Bytes} {cmd : Command} {err : Option Err} (h : unmarshalCmd m p = .ret (m1, cmd, err)) :
    unmarshalCmd m1 p = .ret (m1, cmd, err) := by
  have key : ∀ id r, unmarshalLingoCmdID p = (.ok id, r) → m1 = handleCmdID m id := by
    intro id r hu
    unfold unmarshalCmd at h
    rw [hu] at h
    simp only at h
    split at h
    · cases h; rfl
    · obtain ⟨x, hx⟩ := bind_is_ret h
      split at hx <;> cases hx <;> rfl
    · split at h
      · cases h; rfl
      · obtain ⟨x, hx⟩ := bind_is_ret h
        split at hx <;> cases hx <;> rfl
  unfold unmarshalCmd at h ⊢
  cases hu : unmarshalLingoCmdID p with
  | mk x r =>
    cases x with
    | error e => rw [hu] at h; cases h; rfl
    | ok id =>
      have e := key id r hu
      rw [hu] at h
      subst e
      simp only [switch_again]
      exact h

/-- C96, frames (the requests that neither accumulate nor are answered anew). An accessory that sends a frame with one request
again gets the same frames again, and nothing has changed in the server. -/
theorem C96_frame_partial {clock : Clock} {s : Srv DevGeneral} {p frame : Bytes} {m1 : Bool} {cmd : Command} {err : Option Err}
    (hp : IsPacket p frame) (hu : unmarshalCmd s.mode p = .ret (m1, cmd, err)) (hacc : ¬ Accumulates cmd)
    (hanw : ¬ AnsweredAnew clock s.ctx cmd) (spare spare' : Bytes) :
    ∃ s1 s2 w, processFrame devGeneral clock s ⟨frame, spare⟩ = .ret (s1, w) ∧
      processFrame devGeneral clock s1 ⟨frame, spare'⟩ = .ret (s2, w) ∧ s2.mode = s1.mode ∧ SameState s2.ctx s1.ctx := by
  have hsc : ∀ sp, Scan sp frame [p] false := by
    intro sp
    have := Scan.packet (spare := sp) (j := []) (rest := []) (by intro hx; cases hx) hp (.done (by intro hx; cases hx))
    simpa using this
  have hr : Received cmd := ⟨_, _, _, _, hu⟩
  obtain ⟨c1, _, e1, _, _⟩ := handlePacket_emits devGeneral clock cmd { s.ctx with out := [] }
  have g1 : Handles devGeneral clock cmd { s.ctx with out := [] } c1 c1.out := ⟨e1, rfl⟩
  obtain ⟨c2, _, e2, _, _⟩ := handlePacket_emits devGeneral clock cmd { c1 with out := [] }
  have g2 : Handles devGeneral clock cmd { c1 with out := [] } c2 c2.out := ⟨e2, rfl⟩
  have k2 : Handles devGeneral clock cmd c1 (Ctx.pre c1.out c2) c2.out := by
    have : c1 = Ctx.pre c1.out { c1 with out := [] } := by simp [Ctx.pre]
    refine ⟨?_, rfl⟩
    have e3 := handlePacket_pre devGeneral c1.out clock cmd { c1 with out := [] }
    rw [e2, Out.bind_ret, ← this] at e3
    exact e3
  have hs := (C96_state_iff hr g1 k2).2 hacc
  have ha := (C96_answers_iff hr g1 k2).2 (by
    rintro (⟨_, h', hu⟩ | ⟨_, h', hu⟩ | ⟨_, _, _, _, _, _, h', hn⟩ | ⟨_, h'⟩ | ⟨_, h', hc⟩)
    · exact hanw (.enter _ h' hu)
    · exact hanw (.exit _ h' hu)
    · exact hanw (.complete _ _ _ _ _ _ h' hn)
    · exact hanw (.identified _ h')
    · exact hanw (.time _ h' hc))
  refine ⟨⟨m1, { c1 with out := [] }⟩, ⟨m1, { c2 with out := [] }⟩, c1.out.map (frameIn m1), ?_, ?_, rfl, hs⟩
  · rw [processFrame_course _ _ _ (hsc _), course]
    simp only [decodeAll, hu, Out.bind_ret, handleAll, e1]
  · rw [processFrame_course _ _ _ (hsc _), course]
    simp only [decodeAll, decode_again hu, Out.bind_ret, handleAll, e2, ha]

/-- The second section, two bytes long, of a certificate of three. -/
def secondSection : Bytes := [0x55, 0x08, 0x00, 0x15, 0x02, 0x00, 0x01, 0x02, 0xAA, 0xBB, 0x79]

/-- C96 fails: an accessory that sends a section of its certificate again, for want of an acknowledgement, is told both times that all
is well, but the section is in the certificate twice. -/
theorem C96_fails :
    written (processFrames devGeneral (fun _ => ⟨2024, 1, 2, 3, 4⟩) [.ok ⟨secondSection, []⟩, .ok ⟨secondSection, []⟩]
      (Srv.init DevGeneral.zero)) = .ret [[0x55, 0x04, 0x00, 0x02, 0x00, 0x15, 0xE5], [0x55, 0x04, 0x00, 0x02, 0x00, 0x15, 0xE5]] ∧
    (processFrames devGeneral (fun _ => ⟨2024, 1, 2, 3, 4⟩) [.ok ⟨secondSection, []⟩] (Srv.init DevGeneral.zero) >>=
      fun x => .ret x.1.ctx.certBuf) = .ret [0xAA, 0xBB] ∧
    (processFrames devGeneral (fun _ => ⟨2024, 1, 2, 3, 4⟩) [.ok ⟨secondSection, []⟩, .ok ⟨secondSection, []⟩]
      (Srv.init DevGeneral.zero) >>= fun x => .ret x.1.ctx.certBuf) = .ret [0xAA, 0xBB, 0xAA, 0xBB] := by
  decide +kernel

/-- StartIDPS may be sent again: the hypotheses of `C96_frame_partial`. -/
example (clock : Clock) (s : Srv DevGeneral) : ∃ p frame m1 cmd, IsPacket p frame ∧
    unmarshalCmd s.mode p = .ret (m1, cmd, none) ∧ ¬ Accumulates cmd ∧ ¬ AnsweredAnew clock s.ctx cmd := by
  refine ⟨[0x00, 0x38], [0x55, 0x02, 0x00, 0x38, 0xC6], true, ⟨TypeId.id (.gen .StartIDPS), none, .ptr (.gen .StartIDPS) ()⟩, ?_, ?_,
    accumulates_start rfl, ?_⟩
  · exact ⟨[0x02], 0xC6, .inl ⟨0x02, by decide, by decide, rfl⟩, rfl, by decide⟩
  · cases s.mode <;> decide +kernel
  · rintro (⟨_, h', hu⟩ | ⟨_, h', hu⟩ | ⟨_, _, _, _, _, _, h', hn⟩ | ⟨_, h'⟩ | ⟨_, h', hc⟩) <;> cases h'

/-- The tokens of an accessory accumulate, the change of the UI mode is answered anew. -/
example (clock : Clock) (c : Ctx DevGeneral) (trx : Option UInt16) (hu : c.dev.uimode = 0) :
    Accumulates ⟨TypeId.id (.gen .SetFIDTokenValues), trx, .ptr (.gen .SetFIDTokenValues) ([⟨⟨0, 3⟩, .ipodPref 1 0 0⟩], ())⟩ ∧
    AnsweredAnew clock c ⟨TypeId.id (.gen .EnterRemoteUIMode), trx, .ptr (.gen .EnterRemoteUIMode) ()⟩ :=
  ⟨.tokens _ _ rfl (by simp), .enter _ rfl (by rw [hu]; decide)⟩

end Props
