import Verif.Spec.Grouping
import Verif.Lemmas.Server
import Verif.Props.Server

namespace Ipod
open Go Spec

/-- The same context with commands to send in front of those there. -/
def Ctx.pre {σ : Type} (o : List Command) (c : Ctx σ) : Ctx σ := { c with out := o ++ c.out }

theorem handleGeneral_pre {σ : Type} (D : Device σ) (o : List Command) (req : Command) (c : Ctx σ) :
    handleGeneral D req (c.pre o) = (handleGeneral D req c >>= fun x => .ret (x.pre o)) := by
  unfold handleGeneral
  split <;> simp only [Ctx.ack, Ctx.ackSuccess, Ctx.ackPending, respond_eq, send_eq, Out.bind_ret, Ctx.pre, List.append_assoc]
  all_goals
    (repeat' split) <;> first | contradiction | rfl | (simp only [Out.bind_ret, List.append_assoc]; done) | (simp_all; done)

theorem handleDispRemote_pre {σ : Type} (o : List Command) (clock : Clock) (req : Command) (c : Ctx σ) :
    handleDispRemote clock req (c.pre o) = (handleDispRemote clock req c >>= fun x => .ret (x.pre o)) := by
  unfold handleDispRemote
  split <;> simp only [Ctx.dispAck, respond_eq, Out.bind_ret, Ctx.pre, List.append_assoc]
  · split
    · rfl
    · split <;> simp only [Out.bind_ret, List.append_assoc]
  · split
    · rfl
    · simp only [Out.bind_ret]

theorem handleExtRemote_pre {σ : Type} (o : List Command) (req : Command) (c : Ctx σ) :
    handleExtRemote req (c.pre o) = (handleExtRemote req c >>= fun x => .ret (x.pre o)) := by
  unfold handleExtRemote
  split <;> simp only [Ctx.extAck, Ctx.extFail, respond_eq, Out.bind_ret, Ctx.pre, List.append_assoc]

theorem handleAudio_pre {σ : Type} (o : List Command) (req : Command) (c : Ctx σ) :
    handleAudio req (c.pre o) = (handleAudio req c >>= fun x => .ret (x.pre o)) := by
  unfold handleAudio
  split <;> simp only [respond_eq, Out.bind_ret, Ctx.pre, List.append_assoc]

theorem handlePacket_pre {σ : Type} (D : Device σ) (o : List Command) (clock : Clock) (cmd : Command) (c : Ctx σ) :
    handlePacket D clock cmd (c.pre o) = (handlePacket D clock cmd c >>= fun x => .ret (x.pre o)) := by
  unfold handlePacket
  by_cases h1 : cmd.id.lingoID = lingoGeneralID
  · rw [if_pos h1, if_pos h1]
    by_cases h2 : authComplete cmd.payload = true
    · rw [if_pos h2, if_pos h2]
      simp only [audioStart, send_eq, Out.bind_ret]
      generalize hx : ({ c with counter := c.counter + 1, out := c.out ++ [_] } : Ctx σ) = x
      rw [← handleGeneral_pre D o cmd x, ← hx]
      simp only [Ctx.pre, List.append_assoc]
    · rw [if_neg h2, if_neg h2]
      exact handleGeneral_pre D o cmd c
  rw [if_neg h1, if_neg h1]
  by_cases h2 : cmd.id.lingoID = lingoSimpleRemoteID
  · rw [if_pos h2, if_pos h2]; rfl
  rw [if_neg h2, if_neg h2]
  by_cases h3 : cmd.id.lingoID = lingoDisplayRemoteID
  · rw [if_pos h3, if_pos h3]; exact handleDispRemote_pre o clock cmd c
  rw [if_neg h3, if_neg h3]
  by_cases h4 : cmd.id.lingoID = lingoExtRemoteID
  · rw [if_pos h4, if_pos h4]; exact handleExtRemote_pre o cmd c
  rw [if_neg h4, if_neg h4]
  by_cases h5 : cmd.id.lingoID = lingoDigitalAudioID
  · rw [if_pos h5, if_pos h5]; exact handleAudio_pre o cmd c
  rw [if_neg h5, if_neg h5]
  rfl

theorem handleAll_pre {σ : Type} (D : Device σ) (o : List Command) (clock : Clock) (cmds : List Command) (c : Ctx σ) :
    handleAll D clock cmds (c.pre o) = (handleAll D clock cmds c >>= fun x => .ret (x.pre o)) := by
  induction cmds generalizing c with
  | nil => rfl
  | cons cmd cmds ih =>
    simp only [handleAll, handlePacket_pre]
    cases handlePacket D clock cmd c with
    | panic => rfl
    | ret c' => exact ih c'

theorem handleAll_append {σ : Type} (D : Device σ) (clock : Clock) (as bs : List Command) (c : Ctx σ) :
    handleAll D clock (as ++ bs) c = (handleAll D clock as c >>= handleAll D clock bs) := by
  induction as generalizing c with
  | nil => rfl
  | cons a as ih =>
    simp only [List.cons_append, handleAll]
    cases handlePacket D clock a c with
    | panic => rfl
    | ret c' => exact ih c'

theorem decodeAll_append (m : Bool) (ps qs : List Bytes) :
    decodeAll m (ps ++ qs) = (decodeAll m ps >>= fun x => decodeAll x.1 qs >>= fun y => .ret (y.1, x.2 ++ y.2)) := by
  induction ps generalizing m with
  | nil =>
    simp only [List.nil_append, decodeAll, Out.bind_ret]
    cases decodeAll m qs <;> rfl
  | cons p ps ih =>
    simp only [List.cons_append, decodeAll]
    cases unmarshalCmd m p with
    | panic => rfl
    | ret x =>
      simp only [Out.bind_ret, ih]
      cases decodeAll x.1 ps with
      | panic => rfl
      | ret y =>
        simp only [Out.bind_ret]
        cases decodeAll y.1 qs <;> rfl

/-- The frame a command goes out in. -/
def frameIn (m : Bool) (x : Command) : Bytes := frameOf (marshalCmd m x).2

/-- The packets are decoded and handled; the answers are not yet encoded. -/
def course {σ : Type} (D : Device σ) (clock : Clock) (s : Srv σ) (ps : List Bytes) : Out (Srv σ × List Command) :=
  decodeAll s.mode ps >>= fun x =>
  handleAll D clock x.2 { s.ctx with out := [] } >>= fun c => .ret (⟨x.1, { c with out := [] }⟩, c.out)

theorem course_append {σ : Type} (D : Device σ) (clock : Clock) (s : Srv σ) (ps qs : List Bytes) :
    course D clock s (ps ++ qs) =
      (course D clock s ps >>= fun a => course D clock a.1 qs >>= fun b => .ret (b.1, a.2 ++ b.2)) := by
  simp only [course, decodeAll_append]
  cases decodeAll s.mode ps with
  | panic => rfl
  | ret x =>
    simp only [Out.bind_ret]
    obtain ⟨c, n1, h1, -⟩ := handleAll_ret D clock x.2 { s.ctx with out := [] }
    simp only [h1, Out.bind_ret]
    cases decodeAll x.1 qs with
    | panic => rfl
    | ret y =>
      simp only [Out.bind_ret, handleAll_append, h1]
      have e : c = ({ c with out := [] } : Ctx σ).pre c.out := by simp [Ctx.pre]
      conv => lhs; rw [e]
      rw [handleAll_pre]
      cases handleAll D clock y.2 { c with out := [] } with
      | panic => rfl
      | ret c' => rfl

/-- The handlers never answer with a command that switches the mode. -/
theorem course_no_switch {σ : Type} {D : Device σ} {clock : Clock} {s s' : Srv σ} {ps : List Bytes} {out : List Command}
    (h : course D clock s ps = .ret (s', out)) : ∀ x ∈ out, switchOfId x.id = none := by
  unfold course at h
  cases hd : decodeAll s.mode ps with
  | panic => rw [hd] at h; cases h
  | ret y =>
    obtain ⟨c, news, h1, h2, h3⟩ := handleAll_ret D clock y.2 { s.ctx with out := [] }
    rw [hd] at h
    simp only [Out.bind_ret, h1, Out.ret.injEq, Prod.mk.injEq] at h
    rw [← h.2, h3]
    intro x hx
    obtain ⟨cmd, hc, a, b, new, hh, hx⟩ := Props.handledEach_mem h2 x (by simpa using hx)
    exact Props.emitted_no_switch (decoded_received (decodeAll_ret.1 hd) cmd hc) hh x hx

theorem course_mode {σ : Type} {D : Device σ} {clock : Clock} {s s' : Srv σ} {ps : List Bytes} {out : List Command}
    (h : course D clock s ps = .ret (s', out)) : s'.mode = modeAfter s.mode (ps.map .receive) := by
  unfold course at h
  cases hd : decodeAll s.mode ps with
  | panic => rw [hd] at h; cases h
  | ret y =>
    obtain ⟨c, news, h1, h2, h3⟩ := handleAll_ret D clock y.2 { s.ctx with out := [] }
    rw [hd] at h
    simp only [Out.bind_ret, h1, Out.ret.injEq, Prod.mk.injEq] at h
    rw [← h.1]
    exact Props.decoded_mode (decodeAll_ret.1 hd)

/-- One frame, in terms of its packets. -/
theorem processFrame_course {σ : Type} (D : Device σ) (clock : Clock) (s : Srv σ) {d spare : Bytes} {ps : List Bytes}
    (h : Scan spare d ps false) :
    processFrame D clock s ⟨d, spare⟩ =
      (course D clock s ps >>= fun x => .ret (x.1, x.2.map (frameIn x.1.mode))) := by
  cases hc : course D clock s ps with
  | panic =>
    unfold course at hc
    simp only [processFrame, readCommands_scan h]
    cases hd : decodeAll s.mode ps with
    | panic => rfl
    | ret y =>
      obtain ⟨c, news, h1, h2, h3⟩ := handleAll_ret D clock y.2 { s.ctx with out := [] }
      rw [hd] at hc
      simp [h1] at hc
  | ret x =>
    have hn := course_no_switch hc
    unfold course at hc
    simp only [processFrame, readCommands_scan h]
    cases hd : decodeAll s.mode ps with
    | panic => rw [hd] at hc; cases hc
    | ret y =>
      obtain ⟨c, news, h1, h2, h3⟩ := handleAll_ret D clock y.2 { s.ctx with out := [] }
      rw [hd] at hc
      simp only [Out.bind_ret, h1, Out.ret.injEq] at hc
      subst hc
      simp only [Out.bind_ret, h1, Bool.false_eq_true, if_false]
      obtain ⟨m', rs, e1, e2⟩ := sendAll_eq y.1 c.out
      obtain ⟨e3, e4⟩ := Props.encoded_const e1 hn
      rw [e2, e3, e4, List.map_map]
      rfl

end Ipod
