import Verif.Model.Alias
import Verif.Lemmas.Decode
import Verif.Lemmas.Handlers
import Verif.Lemmas.Server
import Verif.Spec.Alias

/-! Lemmas on the memory model: it refines the model on values. -/

namespace Ipod.Alias
open Go

theorem content_skip (m : Mem) (r : Ref) (n : Nat) : content m (r.skip n) = (content m r).drop n := by
  simp [content, Ref.skip, List.drop_take]

theorem content_next (m : Mem) (r : Ref) (n : Nat) : content m (r.next n) = (content m r).take n := by
  simp [content, Ref.next, List.take_take]

/-- The slice lies within its array. -/
def WF (m : Mem) (r : Ref) : Prop := r.len ≤ r.cap ∧ r.off + r.cap ≤ (m.getD r.arr []).length

theorem content_length {m : Mem} {r : Ref} (h : WF m r) : (content m r).length = r.len := by
  obtain ⟨h1, h2⟩ := h
  simp only [content, List.length_take, List.length_drop]
  omega

theorem view_cap {m : Mem} {r : Ref} (h : WF m r) : (view m r).cap = r.cap := by
  obtain ⟨h1, h2⟩ := h
  simp only [view, Slice.cap, content, List.length_take, List.length_drop]
  omega

theorem view_all {m : Mem} {r : Ref} (h : WF m r) :
    (view m r).data ++ (view m r).spare = ((m.getD r.arr []).drop r.off).take r.cap := by
  obtain ⟨h1, h2⟩ := h
  simp only [view, content]
  rw [← List.drop_drop, show r.cap = r.len + (r.cap - r.len) by omega, List.take_add]
  congr 2
  omega

theorem wf_skip {m : Mem} {r : Ref} (h : WF m r) {n : Nat} (hn : n ≤ r.len) : WF m (r.skip n) := by
  obtain ⟨h1, h2⟩ := h
  simp only [WF, Ref.skip]
  omega

theorem wf_next {m : Mem} {r : Ref} (h : WF m r) (n : Nat) : WF m (r.next n) := by
  obtain ⟨h1, h2⟩ := h
  simp only [WF, Ref.next]
  omega

theorem upTo_view {m : Mem} {r : Ref} (h : WF m r) (n : Nat) :
    (r.upTo n = .panic ∧ (view m r).upTo n = .panic) ∨
    ∃ s, r.upTo n = .ret s ∧ (view m r).upTo n = .ret (view m s) ∧ WF m s := by
  have hc := view_cap h
  have ha := view_all h
  obtain ⟨h1, h2⟩ := h
  unfold Ref.upTo Slice.upTo
  rw [hc]
  by_cases hn : n ≤ r.cap
  · rw [if_pos hn, if_pos hn]
    refine .inr ⟨_, rfl, ?_, hn, h2⟩
    rw [ha]
    simp only [view, content, List.take_take, List.drop_take, List.drop_drop, Nat.min_eq_left hn]
  · rw [if_neg hn, if_neg hn]
    exact .inl ⟨rfl, rfl⟩

theorem fromLo_view {m : Mem} {r : Ref} (h : WF m r) (n : Nat) :
    (r.fromLo n = .panic ∧ (view m r).fromLo n = .panic) ∨
    ∃ s, r.fromLo n = .ret s ∧ (view m r).fromLo n = .ret (view m s) ∧ WF m s := by
  have hl := content_length h
  obtain ⟨h1, h2⟩ := h
  unfold Ref.fromLo Slice.fromLo
  by_cases hn : n ≤ r.len
  · rw [if_pos hn, if_pos (by simp only [Slice.len, view]; omega)]
    refine .inr ⟨_, rfl, ?_, by simp only; omega, by simp only; omega⟩
    simp only [view, content, List.drop_take, List.drop_drop]
    rw [show r.off + n + (r.len - n) = r.off + r.len by omega, show r.cap - n - (r.len - n) = r.cap - r.len by omega]
  · rw [if_neg hn, if_neg (by simp only [Slice.len, view]; omega)]
    exact .inl ⟨rfl, rfl⟩

theorem range_view {m : Mem} {r : Ref} (h : WF m r) (lo hi : Nat) :
    (r.range lo hi = .panic ∧ (view m r).range lo hi = .panic) ∨
    ∃ s, r.range lo hi = .ret s ∧ (view m r).range lo hi = .ret (view m s) ∧ WF m s := by
  have hc := view_cap h
  have ha := view_all h
  obtain ⟨h1, h2⟩ := h
  unfold Ref.range Slice.range
  rw [hc]
  by_cases hn : lo ≤ hi ∧ hi ≤ r.cap
  · rw [if_pos hn, if_pos hn]
    refine .inr ⟨_, rfl, ?_, by simp only; omega, by simp only; omega⟩
    rw [ha]
    simp only [view, content, List.take_take, List.drop_take, List.drop_drop, Nat.min_eq_left hn.2]
    rw [show r.off + lo + (hi - lo) = r.off + hi by omega, show r.cap - lo - (hi - lo) = r.cap - hi by omega]
  · rw [if_neg hn, if_neg hn]
    exact .inl ⟨rfl, rfl⟩

/-! ### Packets -/

theorem parsePacket_view {m : Mem} {data : Ref} (h : WF m data) :
    (parsePacket m data = .panic ∧ Ipod.parsePacket (view m data) = .panic) ∨
    ∃ n r, parsePacket m data = .ret (n, r) ∧ Ipod.parsePacket (view m data) = .ret (n, r.map (content m)) ∧
      ∀ p, r = .ok p → WF m p := by
  unfold parsePacket Ipod.parsePacket
  rw [show (view m data).data = content m data from rfl]
  cases hh : parseHeader (content m data) with
  | error e => exact .inr ⟨_, _, rfl, rfl, by simp⟩
  | ok x =>
    obtain ⟨payOff, payLen⟩ := x
    dsimp only
    rcases upTo_view h (payOff + payLen + 1) with ⟨a1, a2⟩ | ⟨pkt, a1, a2, a3⟩
    · rw [a1, a2]; exact .inl ⟨rfl, rfl⟩
    rw [a1, a2]
    simp only [Out.bind_ret]
    have hl := content_length a3
    rw [show (view m pkt).len = pkt.len from hl]
    split
    · exact .inr ⟨_, _, rfl, rfl, by simp⟩
    · rw [show (view m pkt).data = content m pkt from rfl]
      split
      · exact .inr ⟨_, _, rfl, rfl, by simp⟩
      · rcases range_view a3 payOff (payOff + payLen) with ⟨b1, b2⟩ | ⟨p, b1, b2, b3⟩
        · rw [b1, b2]; exact .inl ⟨rfl, rfl⟩
        · rw [b1, b2]
          exact .inr ⟨_, _, rfl, rfl, by simpa using b3⟩

theorem readPacket_view {m : Mem} {frame : Ref} (h : WF m frame) :
    (readPacket m frame = .panic ∧ Ipod.readPacket (view m frame) = .panic) ∨
    ∃ rest r, readPacket m frame = .ret (rest, r) ∧
      Ipod.readPacket (view m frame) = .ret (view m rest, r.map (content m)) ∧ WF m rest ∧ ∀ p, r = .ok p → WF m p := by
  unfold readPacket Ipod.readPacket
  rw [show (view m frame).data = content m frame from rfl]
  cases hs : indexStart (content m frame) with
  | none => exact .inr ⟨_, _, rfl, rfl, h, by simp⟩
  | some next =>
    dsimp only
    rcases fromLo_view h (next + 1) with ⟨a1, a2⟩ | ⟨f1, a1, a2, a3⟩
    · rw [a1, a2]; exact .inl ⟨rfl, rfl⟩
    rw [a1, a2]
    simp only [Out.bind_ret]
    rcases parsePacket_view a3 with ⟨b1, b2⟩ | ⟨n, r, b1, b2, b3⟩
    · rw [b1, b2]; exact .inl ⟨rfl, rfl⟩
    rw [b1, b2]
    simp only [Out.bind_ret]
    cases r with
    | error e => exact .inr ⟨_, _, rfl, rfl, a3, by simp⟩
    | ok p =>
      simp only [Except.map]
      rcases fromLo_view a3 n with ⟨c1, c2⟩ | ⟨f2, c1, c2, c3⟩
      · rw [c1, c2]; exact .inl ⟨rfl, rfl⟩
      · rw [c1, c2]
        exact .inr ⟨_, _, rfl, rfl, c3, fun q hq => b3 q (by cases hq; rfl)⟩

/-! ### Commands -/

theorem binRead_rest {fs : List FTy} {r : Bytes} {v : SVal fs} {rest : Bytes} (h : binRead fs r = (.ok v, rest)) :
    ∃ n, structSize fs = some n ∧ n ≤ r.length ∧ rest = r.drop n := by
  unfold binRead at h
  split at h
  · cases h
  · rename_i n hn
    split at h
    · cases h
    · rename_i hl
      split at h
      · cases h; exact ⟨n, hn, by omega, rfl⟩
      · cases h

theorem unmarshalToken_now {m : Mem} {data : Ref} (hw : WF m data) (id : TokenID) :
    (unmarshalToken m id data >>= fun t => .ret (t.map (Token.now m))) = Ipod.unmarshalToken id (content m data) := by
  unfold unmarshalToken
  by_cases h : id.fidType = 0x00 ∧ id.fidSubtype = 0x04
  · rw [if_pos h]
    have e : Ipod.unmarshalToken id (content m data) = (index (content m data) 0 >>= fun i =>
        dropOrPanic (content m data) 1 >>= fun s => .ret (.ok (.eaProtocol i s))) := by
      simp only [Ipod.unmarshalToken, h.1, h.2, if_true]
      rfl
    rw [e]
    cases index (content m data) 0 with
    | panic => rfl
    | ret i =>
      simp only [Out.bind_ret]
      have hl := content_length hw
      unfold Ref.fromLo dropOrPanic
      rw [hl]
      split
      · simp only [Out.bind_ret, Except.map, Token.now]
        rw [← content_skip]
        rfl
      · rfl
  · rw [if_neg h]
    cases Ipod.unmarshalToken id (content m data) with
    | panic => rfl
    | ret t => cases t <;> rfl

theorem unmarshalTokenValue_now {m : Mem} {data : Ref} (hw : WF m data) :
    (unmarshalTokenValue m data >>= fun t => .ret (t.map (TokenValue.now m))) =
      Ipod.unmarshalTokenValue (content m data) := by
  unfold unmarshalTokenValue Ipod.unmarshalTokenValue
  cases hb : binRead [.u8, .u8] (content m data) with
  | mk v r =>
    cases v with
    | error e => rfl
    | ok v =>
      obtain ⟨a, b, u⟩ := v
      obtain ⟨n, h1, h2, h3⟩ := binRead_rest hb
      cases (show n = 2 from by simpa [structSize, FTy.size] using h1.symm)
      dsimp only
      rw [content_length hw] at h2
      rw [h3, ← content_skip, ← unmarshalToken_now (wf_skip hw h2)]
      cases unmarshalToken m ⟨a, b⟩ (data.skip 2) with
      | panic => rfl
      | ret t => cases t <;> rfl

theorem unmarshalList_now {m : Mem} (n : Nat) {r : Ref} (hw : WF m r) :
    (unmarshalList m n r >>= fun t => .ret (t.map (List.map (TokenValue.now m)))) =
      Ipod.unmarshalList Ipod.unmarshalTokenValue n (content m r) := by
  induction n generalizing r with
  | zero => rfl
  | succ n ih =>
    unfold unmarshalList Ipod.unmarshalList
    have hl := content_length hw
    cases hc : content m r with
    | nil => rfl
    | cons len r' =>
      dsimp only
      rw [hc, List.length_cons] at hl
      have hs : WF m (r.skip 1) := wf_skip hw (by omega)
      have e1 : content m (r.skip 1) = r' := by rw [content_skip, hc]; rfl
      have e2 : content m ((r.skip 1).next len.toNat) = r'.take len.toNat := by rw [content_next, e1]
      have e3 : content m ((r.skip 1).skip len.toNat) = r'.drop len.toNat := by rw [content_skip, e1]
      rw [← e2, ← unmarshalTokenValue_now (wf_next hs _), ← e3]
      cases unmarshalTokenValue m ((r.skip 1).next len.toNat) with
      | panic => rfl
      | ret v =>
        cases v with
        | error e => rfl
        | ok v =>
          simp only [Out.bind_ret, Except.map]
          by_cases hle : len.toNat ≤ (r.skip 1).len
          · rw [← ih (wf_skip hs hle)]
            cases unmarshalList m n ((r.skip 1).skip len.toNat) with
            | panic => rfl
            | ret vs => cases vs <;> rfl
          · have hnil : content m ((r.skip 1).skip len.toNat) = [] := by
              simp only [content, Ref.skip] at hle ⊢
              rw [show r.len - 1 - len.toNat = 0 by omega, List.take_zero]
            rw [hnil]
            cases n with
            | zero => simp only [unmarshalList, Ipod.unmarshalList]; rfl
            | succ n => simp only [unmarshalList, Ipod.unmarshalList, hnil]; rfl

theorem unmarshalTokens_now {m : Mem} {r : Ref} (hw : WF m r) :
    (unmarshalTokens m r >>= fun t => .ret (t.map (List.map (TokenValue.now m)))) =
      Ipod.unmarshalTokens (content m r) := by
  unfold unmarshalTokens Ipod.unmarshalTokens
  have hl := content_length hw
  cases hc : content m r with
  | nil => rfl
  | cons n r' =>
    dsimp only
    rw [hc, List.length_cons] at hl
    have e1 : content m (r.skip 1) = r' := by rw [content_skip, hc]; rfl
    rw [unmarshalList_now _ (wf_skip hw (by omega)), e1]

theorem decodePayload_now {m : Mem} {r : Ref} (hw : WF m r) (t : TypeId) :
    (decodePayload m t r >>= fun p => .ret (p.map (Payload.now m))) =
      (Ipod.decodePayload t (content m r) >>= fun v => .ret (v.map (Ipod.Payload.ptr t))) := by
  unfold decodePayload
  by_cases h : t = .gen .SetFIDTokenValues
  · rw [if_pos h]
    subst h
    have e : some (Ipod.decodePayload (.gen .SetFIDTokenValues) (content m r)) =
      mapVal (fun l => (l, ())) (Ipod.unmarshalTokens (content m r)) := rfl
    rw [← unmarshalTokens_now hw] at e
    cases h : unmarshalTokens m r with
    | panic =>
      rw [h] at e
      rw [Option.some.inj e]; rfl
    | ret l =>
      rw [h] at e
      rw [Option.some.inj e]; cases l <;> rfl
  · rw [if_neg h]
    cases Ipod.decodePayload t (content m r) with
    | panic => rfl
    | ret v => cases v <;> rfl

theorem unmarshalLingoCmdID_rest {p : Bytes} {id : LingoCmdID} {r : Bytes} (h : unmarshalLingoCmdID p = (.ok id, r)) :
    r.length ≤ p.length ∧ r = p.drop (p.length - r.length) := by
  have key : ∃ k, k ≤ p.length ∧ r = p.drop k := by
    unfold unmarshalLingoCmdID at h
    split at h
    · cases h
    · rename_i lingo r1 hb
      obtain ⟨n1, _, h2, h3⟩ := binRead_rest hb
      split at h
      · split at h
        · cases h
        · rename_i hb2
          obtain ⟨n2, _, k2, k3⟩ := binRead_rest hb2
          cases h
          subst h3
          rw [List.length_drop] at k2
          exact ⟨n1 + n2, by omega, by rw [k3, List.drop_drop]⟩
      · split at h
        · cases h
        · rename_i hb2
          obtain ⟨n2, _, k2, k3⟩ := binRead_rest hb2
          cases h
          subst h3
          rw [List.length_drop] at k2
          exact ⟨n1 + n2, by omega, by rw [k3, List.drop_drop]⟩
  obtain ⟨k, h1, h2⟩ := key
  subst h2
  rw [List.length_drop]
  exact ⟨by omega, by rw [show p.length - (p.length - k) = k by omega]⟩

/-- What is decoded from memory shows the value decoded from the bytes. -/
theorem unmarshalCmd_now {m : Mem} {pkt : Ref} (hw : WF m pkt) (mode : Bool) :
    (unmarshalCmd m mode pkt >>= fun x => .ret (x.1, x.2.1.now m, x.2.2)) = Ipod.unmarshalCmd mode (content m pkt) := by
  unfold unmarshalCmd Ipod.unmarshalCmd
  cases hu : unmarshalLingoCmdID (content m pkt) with
  | mk v r =>
    cases v with
    | error e => rfl
    | ok id =>
      obtain ⟨h1, h2⟩ := unmarshalLingoCmdID_rest hu
      dsimp only
      rw [content_length hw] at h1 h2
      have hrest : WF m (pkt.skip (pkt.len - r.length)) := wf_skip hw (by omega)
      have hc : content m (pkt.skip (pkt.len - r.length)) = r := by rw [content_skip, ← h2]
      have hlen : (pkt.skip (pkt.len - r.length)).len = r.length := by simp only [Ref.skip]; omega
      rw [content_length hw]
      generalize pkt.skip (pkt.len - r.length) = rest at *
      rw [hlen]
      generalize registry.lookup TypeId.size id r.length (handleCmdID mode id) = look
      match look with
      | none => simp only [Out.bind_ret, Command.now, Payload.now, hc]
      | some (t, false) =>
        dsimp only
        have := decodePayload_now hrest t
        rw [hc] at this
        cases hd : Ipod.decodePayload t r with
        | panic =>
          rw [hd] at this
          cases hm : decodePayload m t rest with
          | panic => rfl
          | ret x => rw [hm] at this; cases this
        | ret x =>
          rw [hd] at this
          cases hm : decodePayload m t rest with
          | panic => rw [hm] at this; cases this
          | ret y =>
            rw [hm] at this
            simp only [Out.bind_ret, Out.ret.injEq] at this ⊢
            cases x <;> cases y <;> simp only [Except.map, Except.error.injEq, Except.ok.injEq, reduceCtorEq] at this
            · subst this; rfl
            · simp only [Out.bind_ret, Command.now, this]
      | some (t, true) =>
        dsimp only
        cases hb : binRead [.u16] r with
        | mk v2 r2 =>
          rw [hc, hb]
          cases v2 with
          | error e => rfl
          | ok v2 =>
            obtain ⟨tr, u⟩ := v2
            obtain ⟨n, k1, k2, k3⟩ := binRead_rest hb
            cases (show n = 2 from by simpa [structSize, FTy.size] using k1.symm)
            dsimp only
            have hrest2 : WF m (rest.skip 2) := wf_skip hrest (by omega)
            have := decodePayload_now hrest2 t
            rw [content_skip, hc, ← k3] at this
            cases hd : Ipod.decodePayload t r2 with
            | panic =>
              rw [hd] at this
              cases hm : decodePayload m t (rest.skip 2) with
              | panic => rfl
              | ret x => rw [hm] at this; cases this
            | ret x =>
              rw [hd] at this
              cases hm : decodePayload m t (rest.skip 2) with
              | panic => rw [hm] at this; cases this
              | ret y =>
                rw [hm] at this
                simp only [Out.bind_ret, Out.ret.injEq] at this ⊢
                cases x <;> cases y <;> simp only [Except.map, Except.error.injEq, Except.ok.injEq, reduceCtorEq] at this
                · subst this; rfl
                · simp only [Out.bind_ret, Command.now, this]

end Ipod.Alias

namespace Ipod
open Go

/-! ### Devices that cannot be told apart -/

/-- `f` takes the states of `D` to states of `E` that answer and change alike. -/
structure Device.Hom {σ τ : Type} (D : Device σ) (E : Device τ) (f : σ → τ) : Prop where
  uiMode : ∀ s, E.uiMode (f s) = D.uiMode s
  setUIMode : ∀ s m, E.setUIMode (f s) m = f (D.setUIMode s m)
  name : ∀ s, E.name (f s) = D.name s
  softwareVersion : ∀ s, E.softwareVersion (f s) = D.softwareVersion s
  serialNum : ∀ s, E.serialNum (f s) = D.serialNum s
  lingoProtocolVersion : ∀ s l, E.lingoProtocolVersion (f s) l = D.lingoProtocolVersion s l
  lingoOptions : ∀ s l, E.lingoOptions (f s) l = D.lingoOptions s l
  prefSettingID : ∀ s c, E.prefSettingID (f s) c = D.prefSettingID s c
  setPrefSettingID : ∀ s a b c, E.setPrefSettingID (f s) a b c = f (D.setPrefSettingID s a b c)
  startIDPS : ∀ s, E.startIDPS (f s) = f (D.startIDPS s)
  endIDPS : ∀ s a, E.endIDPS (f s) a = f (D.endIDPS s a)
  setToken : ∀ s t, E.setToken (f s) t = f (D.setToken s t)
  accAuthCert : ∀ s b, E.accAuthCert (f s) b = f (D.accAuthCert s b)
  setEventNotificationMask : ∀ s m, E.setEventNotificationMask (f s) m = f (D.setEventNotificationMask s m)
  eventNotificationMask : ∀ s, E.eventNotificationMask (f s) = D.eventNotificationMask s
  supportedEventNotificationMask : ∀ s, E.supportedEventNotificationMask (f s) = D.supportedEventNotificationMask s
  cancelCommand : ∀ s a b c, E.cancelCommand (f s) a b c = f (D.cancelCommand s a b c)
  maxPayload : ∀ s, E.maxPayload (f s) = D.maxPayload s

/-- The same context with another device. -/
def Ctx.map {σ τ : Type} (f : σ → τ) (c : Ctx σ) : Ctx τ := ⟨f c.dev, c.certBuf, c.counter, c.out, c.ticks⟩

theorem hom_tokens {σ τ : Type} {D : Device σ} {E : Device τ} {f : σ → τ} (H : D.Hom E f) (ts : List FIDTokenValue) (s : σ) :
    ts.foldl E.setToken (f s) = f (ts.foldl D.setToken s) := by
  induction ts generalizing s with
  | nil => rfl
  | cons t ts ih => simp only [List.foldl_cons, H.setToken, ih]

theorem handleGeneral_map {σ τ : Type} {D : Device σ} {E : Device τ} {f : σ → τ} (H : D.Hom E f) (req : Command) (c : Ctx σ) :
    handleGeneral E req (c.map f) = (handleGeneral D req c >>= fun x => .ret (x.map f)) := by
  unfold handleGeneral
  split <;> simp only [Ctx.ack, Ctx.ackSuccess, Ctx.ackPending, respond_eq, send_eq, Out.bind_ret, Ctx.map, H.uiMode,
    H.setUIMode, H.name, H.softwareVersion, H.serialNum, H.lingoProtocolVersion, H.lingoOptions, H.prefSettingID,
    H.setPrefSettingID, H.startIDPS, H.endIDPS, hom_tokens H, H.setEventNotificationMask,
    H.eventNotificationMask, H.supportedEventNotificationMask, H.cancelCommand, H.maxPayload]
  all_goals
    (repeat' split) <;> first | contradiction | rfl | (simp only [Out.bind_ret, H.accAuthCert]; done) | (simp_all; done)

theorem handleDispRemote_map {σ τ : Type} (f : σ → τ) (clock : Clock) (req : Command) (c : Ctx σ) :
    handleDispRemote clock req (c.map f) = (handleDispRemote clock req c >>= fun x => .ret (x.map f)) := by
  unfold handleDispRemote
  split <;> simp only [Ctx.dispAck, respond_eq, Out.bind_ret, Ctx.map]
  · split
    · rfl
    · split <;> rfl
  · split <;> rfl

theorem handleExtRemote_map {σ τ : Type} (f : σ → τ) (req : Command) (c : Ctx σ) :
    handleExtRemote req (c.map f) = (handleExtRemote req c >>= fun x => .ret (x.map f)) := by
  unfold handleExtRemote
  split <;> simp only [Ctx.extAck, Ctx.extFail, respond_eq, Out.bind_ret, Ctx.map]

theorem handleAudio_map {σ τ : Type} (f : σ → τ) (req : Command) (c : Ctx σ) :
    handleAudio req (c.map f) = (handleAudio req c >>= fun x => .ret (x.map f)) := by
  unfold handleAudio
  split <;> simp only [respond_eq, Out.bind_ret, Ctx.map]

theorem handlePacket_map {σ τ : Type} {D : Device σ} {E : Device τ} {f : σ → τ} (H : D.Hom E f) (clock : Clock)
    (cmd : Command) (c : Ctx σ) :
    handlePacket E clock cmd (c.map f) = (handlePacket D clock cmd c >>= fun x => .ret (x.map f)) := by
  unfold handlePacket
  by_cases h1 : cmd.id.lingoID = lingoGeneralID
  · rw [if_pos h1, if_pos h1]
    by_cases h2 : authComplete cmd.payload = true
    · rw [if_pos h2, if_pos h2]
      simp only [audioStart, send_eq, Out.bind_ret]
      generalize hx : ({ c with counter := c.counter + 1, out := c.out ++ [_] } : Ctx σ) = x
      rw [← handleGeneral_map H cmd x, ← hx]
      rfl
    · rw [if_neg h2, if_neg h2]
      exact handleGeneral_map H cmd c
  rw [if_neg h1, if_neg h1]
  by_cases h2 : cmd.id.lingoID = lingoSimpleRemoteID
  · rw [if_pos h2, if_pos h2]; rfl
  rw [if_neg h2, if_neg h2]
  by_cases h3 : cmd.id.lingoID = lingoDisplayRemoteID
  · rw [if_pos h3, if_pos h3]; exact handleDispRemote_map f clock cmd c
  rw [if_neg h3, if_neg h3]
  by_cases h4 : cmd.id.lingoID = lingoExtRemoteID
  · rw [if_pos h4, if_pos h4]; exact handleExtRemote_map f cmd c
  rw [if_neg h4, if_neg h4]
  by_cases h5 : cmd.id.lingoID = lingoDigitalAudioID
  · rw [if_pos h5, if_pos h5]; exact handleAudio_map f cmd c
  rw [if_neg h5, if_neg h5]
  rfl

theorem handleAll_map {σ τ : Type} {D : Device σ} {E : Device τ} {f : σ → τ} (H : D.Hom E f) (clock : Clock)
    (cmds : List Command) (c : Ctx σ) :
    handleAll E clock cmds (c.map f) = (handleAll D clock cmds c >>= fun x => .ret (x.map f)) := by
  induction cmds generalizing c with
  | nil => rfl
  | cons cmd cmds ih =>
    simp only [handleAll, handlePacket_map H]
    cases handlePacket D clock cmd c with
    | panic => rfl
    | ret c' => exact ih c'

/-- The shipped device without its memory of the tokens. -/
def bareDevice : Device UInt8 where
  uiMode d := d
  setUIMode _ m := m
  name _ := devGeneral.name DevGeneral.zero
  softwareVersion _ := devGeneral.softwareVersion DevGeneral.zero
  serialNum _ := devGeneral.serialNum DevGeneral.zero
  lingoProtocolVersion _ := devGeneral.lingoProtocolVersion DevGeneral.zero
  lingoOptions _ := devGeneral.lingoOptions DevGeneral.zero
  prefSettingID _ := devGeneral.prefSettingID DevGeneral.zero
  setPrefSettingID d _ _ _ := d
  startIDPS d := d
  endIDPS d _ := d
  setToken d _ := d
  accAuthCert d _ := d
  setEventNotificationMask d _ := d
  eventNotificationMask _ := devGeneral.eventNotificationMask DevGeneral.zero
  supportedEventNotificationMask _ := devGeneral.supportedEventNotificationMask DevGeneral.zero
  cancelCommand d _ _ _ := d
  maxPayload _ := devGeneral.maxPayload DevGeneral.zero

theorem bare_hom : devGeneral.Hom bareDevice (·.uimode) := by
  constructor <;> intros <;> rfl

/-- Servers that differ at most in the tokens they hold. -/
def SameBut (c d : Ctx DevGeneral) : Prop := c.map (·.uimode) = d.map (·.uimode)

theorem handleAll_same {c d : Ctx DevGeneral} (h : SameBut c d) (clock : Clock) (cmds : List Command) :
    (handleAll devGeneral clock cmds c = .panic ∧ handleAll devGeneral clock cmds d = .panic) ∨
    ∃ c' d', handleAll devGeneral clock cmds c = .ret c' ∧ handleAll devGeneral clock cmds d = .ret d' ∧ SameBut c' d' := by
  have e1 := handleAll_map bare_hom clock cmds c
  have e2 := handleAll_map bare_hom clock cmds d
  rw [show c.map (·.uimode) = d.map (·.uimode) from h, e2] at e1
  cases h1 : handleAll devGeneral clock cmds c with
  | panic =>
    rw [h1] at e1
    cases h2 : handleAll devGeneral clock cmds d with
    | panic => exact .inl ⟨rfl, rfl⟩
    | ret d' => rw [h2] at e1; cases e1
  | ret c' =>
    rw [h1] at e1
    cases h2 : handleAll devGeneral clock cmds d with
    | panic => rw [h2] at e1; cases e1
    | ret d' =>
      rw [h2] at e1
      exact .inr ⟨c', d', rfl, rfl, (Out.ret.inj e1).symm⟩

end Ipod

namespace Ipod.Alias
open Go

/-! ### The server loop -/

theorem readCommands_eq (m : Mem) (mode : Bool) (frame : Ref) :
    readCommands m mode frame =
      match readPacket m frame with
      | .panic => .panic
      | .ret (rest, .error e) => if e = .eof then .ret (mode, []) else readCommands m mode rest
      | .ret (rest, .ok pkt) =>
        unmarshalCmd m mode pkt >>= fun x => readCommands m x.1 rest >>= fun y => .ret (y.1, x.2.1 :: y.2) := by
  rw [readCommands]
  split <;> simp_all

theorem readCommands_now {m : Mem} {mode : Bool} {frame : Ref} (hw : WF m frame) :
    Ipod.readCommands mode (view m frame) =
      (readCommands m mode frame >>= fun x => .ret (x.1, x.2.map (·.now m))) := by
  rw [readCommands_eq, Ipod.readCommands_eq]
  rcases readPacket_view hw with ⟨a1, a2⟩ | ⟨rest, r, a1, a2, a3, a4⟩
  · rw [a1, a2]; rfl
  rw [a1, a2]
  have hs := readPacket_shorter a1
  cases r with
  | error e =>
    simp only [Except.map]
    by_cases he : e = .eof
    · rw [if_pos he, if_pos he]; rfl
    · rw [if_neg he, if_neg he]
      have : rest.len < frame.len := hs.resolve_left (fun h => he (Except.error.inj h))
      exact readCommands_now a3
  | ok p =>
    have : rest.len < frame.len := hs.resolve_left (fun h => by cases h)
    simp only [Except.map]
    rw [← unmarshalCmd_now (a4 p rfl)]
    cases unmarshalCmd m mode p with
    | panic => rfl
    | ret x =>
      simp only [Out.bind_ret]
      rw [readCommands_now a3]
      cases readCommands m x.1 rest with
      | panic => rfl
      | ret y => rfl
termination_by frame.len

theorem mem_cur (b : Buf) : b.mem.getD b.old.length [] = b.cur.data ++ b.cur.spare := by
  simp [Buf.mem]

theorem bytes_wf (b : Buf) : WF b.mem b.bytes := by
  refine ⟨by simp [Buf.bytes], ?_⟩
  show 0 + b.cur.cap ≤ (b.mem.getD b.old.length []).length
  rw [mem_cur]; simp

theorem bytes_view (b : Buf) : view b.mem b.bytes = b.cur := by
  have h1 : content b.mem b.bytes = b.cur.data := by
    simp only [content, mem_cur, Buf.bytes, List.drop_zero]
    exact List.take_left
  have h2 : ((b.mem.getD b.bytes.arr []).drop (b.bytes.off + b.bytes.len)).take (b.bytes.cap - b.bytes.len) = b.cur.spare := by
    simp only [mem_cur, Buf.bytes, Nat.zero_add]
    rw [show List.drop b.cur.len (b.cur.data ++ b.cur.spare) = b.cur.spare from List.drop_left]
    exact List.take_of_length_le (by simp)
  rw [view, h1, h2]

theorem readFrameLoop_cur (grow : Growth) (defs : List Hid.ReportDef) (rs : List (Except Err Hid.Report)) (b : Buf) :
    Hid.readFrameLoop grow defs rs b.cur = (readFrameLoop grow defs rs b >>= fun x =>
      .ret (x.1, x.2.1.cur, x.2.2.map (view x.2.1.mem))) := by
  induction rs generalizing b with
  | nil => rfl
  | cons r rs ih =>
    cases r with
    | error e => rfl
    | ok report =>
      simp only [readFrameLoop, Hid.readFrameLoop]
      cases Hid.find defs report.id.toNat with
      | none => rfl
      | some d =>
        dsimp only
        by_cases h0 : d.maxPayload < 0
        · rw [if_pos h0, if_pos h0]; rfl
        rw [if_neg h0, if_neg h0]
        by_cases h1 : report.linkControl = Hid.linkControlDone
        · rw [if_pos h1, if_pos h1]
          simp only [Out.bind_ret, Except.map, bytes_view]
          rfl
        rw [if_neg h1, if_neg h1]
        by_cases h2 : report.linkControl = Hid.linkControlMoreToFollow
        · rw [if_pos h2, if_pos h2]
          exact ih (b.reset.write grow _)
        rw [if_neg h2, if_neg h2]
        by_cases h3 : report.linkControl = Hid.linkControlContinue ||| Hid.linkControlMoreToFollow
        · rw [if_pos h3, if_pos h3]
          exact ih (b.write grow _)
        rw [if_neg h3, if_neg h3]
        by_cases h4 : report.linkControl = Hid.linkControlContinue
        · rw [if_pos h4, if_pos h4]
          simp only [Out.bind_ret, Except.map, bytes_view]
          rfl
        rw [if_neg h4, if_neg h4]
        exact ih b

theorem readFrameLoop_frame {grow : Growth} {defs : List Hid.ReportDef} {rs rs' : List (Except Err Hid.Report)} {b b' : Buf}
    {f : Ref} (h : readFrameLoop grow defs rs b = .ret (rs', b', .ok f)) : f = b'.bytes := by
  induction rs generalizing b with
  | nil => cases h
  | cons r rs ih =>
    cases r with
    | error e => cases h
    | ok report =>
      simp only [readFrameLoop] at h
      repeat' split at h
      all_goals first | exact ih h | (cases h; rfl) | cases h

theorem readFrame_cur (grow : Growth) (defs : List Hid.ReportDef) (rs : List (Except Err Hid.Report)) (b : Buf) :
    Hid.readFrame grow defs rs b.cur = (readFrame grow defs rs b >>= fun x =>
      .ret (x.1, x.2.1.cur, x.2.2.map (view x.2.1.mem))) :=
  readFrameLoop_cur grow defs rs b.reset

/-- One frame on values and in memory. -/
theorem processFrame_same {clock : Clock} {m : Mem} {frame : Ref} (hw : WF m frame) {s : Ipod.Srv DevGeneral} {t : Srv}
    (hm : s.mode = t.srv.mode) (hs : SameBut s.ctx t.srv.ctx) :
    (processFrame clock m t frame = .panic ∧ Ipod.processFrame devGeneral clock s (view m frame) = .panic) ∨
    ∃ t' s' out, processFrame clock m t frame = .ret (t', out) ∧
      Ipod.processFrame devGeneral clock s (view m frame) = .ret (s', out) ∧ s'.mode = t'.srv.mode ∧
      SameBut s'.ctx t'.srv.ctx := by
  unfold processFrame Ipod.processFrame
  rw [readCommands_now hw, hm]
  cases readCommands m t.srv.mode frame with
  | panic => exact .inl ⟨rfl, rfl⟩
  | ret x =>
    simp only [Out.bind_ret]
    have hs' : SameBut { s.ctx with out := [] } { (t.now m).ctx with out := [] } := by
      simp only [SameBut, Ctx.map, Ctx.mk.injEq, Srv.now] at hs ⊢
      exact ⟨hs.1, hs.2.1, hs.2.2.1, trivial, hs.2.2.2.2⟩
    rcases handleAll_same hs' clock (x.2.map (·.now m)) with ⟨a1, a2⟩ | ⟨c', d', a1, a2, a3⟩
    · rw [a1, a2]; exact .inl ⟨rfl, rfl⟩
    · rw [a1, a2]
      have ho : c'.out = d'.out := by
        simp only [SameBut, Ctx.map, Ctx.mk.injEq] at a3
        exact a3.2.2.2.1
      simp only [Out.bind_ret, ho]
      refine .inr ⟨_, _, _, rfl, rfl, rfl, ?_⟩
      simp only [SameBut, Ctx.map, Ctx.mk.injEq] at a3 ⊢
      exact ⟨a3.1, a3.2.1, a3.2.2.1, trivial, a3.2.2.2.2⟩

theorem readFrameLoop_total {grow : Growth} {defs : List Hid.ReportDef} (hd : ∀ d ∈ defs, 0 ≤ d.maxPayload)
    (rs : List (Except Err Hid.Report)) (b : Slice) : ∃ x, Hid.readFrameLoop grow defs rs b = .ret x := by
  induction rs generalizing b with
  | nil => exact ⟨_, rfl⟩
  | cons r rs ih =>
    cases r with
    | error e => exact ⟨_, rfl⟩
    | ok report =>
      simp only [Hid.readFrameLoop]
      cases hf : Hid.find defs report.id.toNat with
      | none => exact ⟨_, rfl⟩
      | some d =>
        have := hd d (List.mem_of_find?_eq_some hf)
        dsimp only
        rw [if_neg (by omega)]
        repeat' split
        all_goals first | exact ih _ | exact ⟨_, rfl⟩

theorem frameReads_total {grow : Growth} {defs : List Hid.ReportDef} (hd : ∀ d ∈ defs, 0 ≤ d.maxPayload) (n : Nat)
    (rs : List (Except Err Hid.Report)) (b : Slice) : ∃ xs, frameReads grow defs n rs b = .ret xs := by
  induction n generalizing rs b with
  | zero => exact ⟨_, rfl⟩
  | succ n ih =>
    obtain ⟨x, hx⟩ := readFrameLoop_total (grow := grow) hd rs b.reset
    obtain ⟨xs, hxs⟩ := ih x.1 x.2.1
    exact ⟨x.2.2 :: xs, by simp only [frameReads, Hid.readFrame, hx, Out.bind_ret, hxs]⟩

/-- A session on values and in memory. -/
theorem processFrames_same {clock : Clock} {grow : Growth} {defs : List Hid.ReportDef} (hd : ∀ d ∈ defs, 0 ≤ d.maxPayload)
    (n : Nat) (rs : List (Except Err Hid.Report)) (b : Buf) {s : Ipod.Srv DevGeneral} {t : Srv}
    (hm : s.mode = t.srv.mode) (hs : SameBut s.ctx t.srv.ctx) :
    (processFrames clock grow defs n rs b t = .panic ∧
      (frameReads grow defs n rs b.cur >>= fun fs => Ipod.processFrames devGeneral clock fs s) = .panic) ∨
    ∃ b' t' s' out, processFrames clock grow defs n rs b t = .ret (b', t', out) ∧
      (frameReads grow defs n rs b.cur >>= fun fs => Ipod.processFrames devGeneral clock fs s) = .ret (s', out) ∧
      s'.mode = t'.srv.mode ∧ SameBut s'.ctx t'.srv.ctx := by
  induction n generalizing rs b s t with
  | zero => exact .inr ⟨_, _, _, _, rfl, rfl, hm, hs⟩
  | succ n ih =>
    obtain ⟨x, hx⟩ := readFrameLoop_total (grow := grow) hd rs b.cur.reset
    have hc := readFrame_cur grow defs rs b
    simp only [Hid.readFrame, hx] at hc
    cases hr : readFrame grow defs rs b with
    | panic => rw [hr] at hc; cases hc
    | ret y =>
      obtain ⟨rs', b', f⟩ := y
      rw [hr] at hc
      simp only [Out.bind_ret, Out.ret.injEq] at hc
      subst hc
      simp only [processFrames, frameReads, Hid.readFrame, hx, hr, Out.bind_ret]
      obtain ⟨fs, hfs⟩ := frameReads_total (grow := grow) hd n rs' b'.cur
      rw [hfs]
      simp only [Out.bind_ret]
      cases f with
      | error e =>
        have := ih rs' b' hm hs
        rw [hfs] at this
        simp only [Out.bind_ret] at this
        by_cases he : e = .eof
        · subst he
          exact .inr ⟨_, _, _, _, if_pos rfl, rfl, hm, hs⟩
        · simp only [Except.map, if_neg he]
          have e2 : Ipod.processFrames devGeneral clock (.error e :: fs) s = Ipod.processFrames devGeneral clock fs s := by
            cases e <;> first | rfl | exact absurd rfl he
          rw [e2]
          exact this
      | ok frame =>
        have hf : frame = b'.bytes := readFrameLoop_frame hr
        subst hf
        simp only [Except.map, Ipod.processFrames]
        rcases processFrame_same (clock := clock) (bytes_wf b') hm hs with ⟨a1, a2⟩ | ⟨t', s', out, a1, a2, a3, a4⟩
        · rw [a1, a2]; exact .inl ⟨rfl, rfl⟩
        · rw [a1, a2]
          simp only [Out.bind_ret]
          have := ih rs' b' a3 a4
          rw [hfs] at this
          simp only [Out.bind_ret] at this
          rcases this with ⟨c1, c2⟩ | ⟨b'', t'', s'', out'', c1, c2, c3, c4⟩
          · rw [c1, c2]; exact .inl ⟨rfl, rfl⟩
          · rw [c1, c2]; exact .inr ⟨_, _, _, _, rfl, rfl, c3, c4⟩

/-! ### What is kept -/

/-- A token value as `UnmarshalBinary` makes it. -/
def TokOK (m : Mem) (v : TokenValue) : Prop :=
  match v.token with
  | .owned t => ∀ i s, t ≠ .eaProtocol i s
  | .eaProtocol _ r => WF m r

/-- A payload as `UnmarshalCmd` makes it. -/
def PayOK (m : Mem) : Payload → Prop
  | .owned p => p = .nil ∨ ∃ t v, p = .ptr t v ∧ t ≠ .gen .SetFIDTokenValues
  | .unknown r => WF m r
  | .tokens l => ∀ v ∈ l, TokOK m v

theorem unmarshalToken_owned {id : TokenID} {d : Bytes} (h : ¬ (id.fidType = 0x00 ∧ id.fidSubtype = 0x04)) {t : FIDToken}
    (ht : Ipod.unmarshalToken id d = .ret (.ok t)) (i : UInt8) (s : Bytes) : t ≠ .eaProtocol i s := by
  have key : ∀ (fs : List FTy) (f : SVal fs → FIDToken), (∀ v, f v ≠ .eaProtocol i s) →
      tokenRead fs d f = .ret (.ok t) → t ≠ .eaProtocol i s := by
    intro fs f hf h
    unfold tokenRead at h
    split at h
    · cases h; exact hf _
    · cases h
  unfold Ipod.unmarshalToken at ht
  split at ht
  · rename_i h0
    split at ht
    · cases hx : unmarshalIdentify d with
      | error e => rw [hx] at ht; cases ht
      | ok x =>
        rw [hx] at ht
        cases ht
        unfold unmarshalIdentify at hx
        repeat' split at hx
        all_goals cases hx
        all_goals exact fun h => by cases h
    · cases ht; exact fun h => by cases h
    · cases hx : unmarshalAccInfo d with
      | error e => rw [hx] at ht; cases ht
      | ok x =>
        rw [hx] at ht
        cases ht
        unfold unmarshalAccInfo at hx
        dsimp only at hx
        repeat' split at hx
        all_goals cases hx
        all_goals exact fun h => by cases h
    · exact key _ _ (fun _ h => by cases h) ht
    · rename_i h4
      exact absurd ⟨h0, UInt8.toNat_inj.1 h4⟩ h
    · exact key _ _ (fun _ h => by cases h) ht
    · exact key _ _ (fun _ h => by cases h) ht
    · exact key _ _ (fun _ h => by cases h) ht
    · cases ht; exact fun h => by cases h
  · split at ht
    · exact key _ _ (fun _ h => by cases h) ht
    · cases ht; exact fun h => by cases h

theorem unmarshalToken_ok {m : Mem} {id : TokenID} {data : Ref} (hw : WF m data) {t : Token}
    (h : unmarshalToken m id data = .ret (.ok t)) : TokOK m ⟨id, t⟩ := by
  unfold unmarshalToken at h
  by_cases h4 : id.fidType = 0x00 ∧ id.fidSubtype = 0x04
  · rw [if_pos h4] at h
    cases hi : index (content m data) 0 with
    | panic => rw [hi] at h; cases h
    | ret i =>
      rw [hi] at h
      simp only [Out.bind_ret] at h
      rcases fromLo_view hw 1 with ⟨a1, _⟩ | ⟨s, a1, _, a3⟩
      · rw [a1] at h; cases h
      · rw [a1] at h
        cases h
        exact a3
  · rw [if_neg h4] at h
    cases ht : Ipod.unmarshalToken id (content m data) with
    | panic => rw [ht] at h; cases h
    | ret x =>
      rw [ht] at h
      cases x with
      | error e => cases h
      | ok x =>
        cases h
        exact unmarshalToken_owned h4 ht

theorem unmarshalTokenValue_ok {m : Mem} {data : Ref} (hw : WF m data) {v : TokenValue}
    (h : unmarshalTokenValue m data = .ret (.ok v)) : TokOK m v := by
  unfold unmarshalTokenValue at h
  cases hb : binRead [.u8, .u8] (content m data) with
  | mk x r =>
    rw [hb] at h
    cases x with
    | error e => cases h
    | ok x =>
      obtain ⟨a, b, u⟩ := x
      obtain ⟨n, h1, h2, _⟩ := binRead_rest hb
      cases (show n = 2 from by simpa [structSize, FTy.size] using h1.symm)
      rw [content_length hw] at h2
      dsimp only at h
      cases ht : unmarshalToken m ⟨a, b⟩ (data.skip 2) with
      | panic => rw [ht] at h; cases h
      | ret t =>
        rw [ht] at h
        cases t with
        | error e => cases h
        | ok t =>
          cases h
          exact unmarshalToken_ok (wf_skip hw h2) ht

theorem unmarshalList_ok {m : Mem} (n : Nat) {r : Ref} (hw : WF m r) {l : List TokenValue}
    (h : unmarshalList m n r = .ret (.ok l)) : ∀ v ∈ l, TokOK m v := by
  induction n generalizing r l with
  | zero => cases h; simp
  | succ n ih =>
    unfold unmarshalList at h
    have hl := content_length hw
    cases hc : content m r with
    | nil => rw [hc] at h; cases h
    | cons len r' =>
      rw [hc] at h
      rw [hc, List.length_cons] at hl
      have hs : WF m (r.skip 1) := wf_skip hw (by omega)
      dsimp only at h
      cases hv : unmarshalTokenValue m ((r.skip 1).next len.toNat) with
      | panic => rw [hv] at h; cases h
      | ret v =>
        rw [hv] at h
        cases v with
        | error e => cases h
        | ok v =>
          simp only [Out.bind_ret] at h
          have h0 : TokOK m v := unmarshalTokenValue_ok (wf_next hs _) hv
          cases hr : unmarshalList m n ((r.skip 1).skip len.toNat) with
          | panic => rw [hr] at h; cases h
          | ret vs =>
            rw [hr] at h
            cases vs with
            | error e => cases h
            | ok vs =>
              cases h
              by_cases hle : len.toNat ≤ (r.skip 1).len
              · simp only [List.forall_mem_cons]
                exact ⟨h0, ih (wf_skip hs hle) hr⟩
              · have hnil : content m ((r.skip 1).skip len.toNat) = [] := by
                  simp only [content, Ref.skip] at hle ⊢
                  rw [show r.len - 1 - len.toNat = 0 by omega, List.take_zero]
                cases n with
                | zero => cases hr; simpa using h0
                | succ n => simp only [unmarshalList, hnil] at hr; cases hr

theorem decodePayload_ok {m : Mem} {r : Ref} (hw : WF m r) {t : TypeId} {p : Payload}
    (h : decodePayload m t r = .ret (.ok p)) : PayOK m p := by
  unfold decodePayload at h
  by_cases ht : t = .gen .SetFIDTokenValues
  · rw [if_pos ht] at h
    unfold unmarshalTokens at h
    have hl := content_length hw
    cases hc : content m r with
    | nil => rw [hc] at h; cases h
    | cons n r' =>
      rw [hc] at h
      rw [hc, List.length_cons] at hl
      dsimp only at h
      cases hv : unmarshalList m n.toNat (r.skip 1) with
      | panic => rw [hv] at h; cases h
      | ret l =>
        rw [hv] at h
        cases l with
        | error e => cases h
        | ok l => cases h; exact unmarshalList_ok _ (wf_skip hw (by omega)) hv
  · rw [if_neg ht] at h
    cases hd : Ipod.decodePayload t (content m r) with
    | panic => rw [hd] at h; cases h
    | ret v =>
      rw [hd] at h
      cases v with
      | error e => cases h
      | ok v => cases h; exact .inr ⟨t, v, rfl, ht⟩

theorem unmarshalCmd_ok {m : Mem} {pkt : Ref} (hw : WF m pkt) {mode mode' : Bool} {cmd : Command} {err : Option Err}
    (h : unmarshalCmd m mode pkt = .ret (mode', cmd, err)) : PayOK m cmd.payload := by
  unfold unmarshalCmd at h
  cases hu : unmarshalLingoCmdID (content m pkt) with
  | mk v r =>
    rw [hu] at h
    cases v with
    | error e => cases h; exact .inl rfl
    | ok id =>
      obtain ⟨h1, h2⟩ := unmarshalLingoCmdID_rest hu
      dsimp only at h
      rw [content_length hw] at h h1 h2
      have hrest : WF m (pkt.skip (pkt.len - r.length)) := wf_skip hw (by omega)
      generalize pkt.skip (pkt.len - r.length) = rest at *
      generalize registry.lookup TypeId.size id rest.len (handleCmdID mode id) = look at h
      match look with
      | none => cases h; exact hrest
      | some (t, false) =>
        dsimp only at h
        cases hd : decodePayload m t rest with
        | panic => rw [hd] at h; cases h
        | ret p =>
          rw [hd] at h
          cases p with
          | error e => cases h; exact .inl rfl
          | ok p => cases h; exact decodePayload_ok hrest hd
      | some (t, true) =>
        dsimp only at h
        cases hb : binRead [.u16] (content m rest) with
        | mk v2 r2 =>
          rw [hb] at h
          cases v2 with
          | error e => cases h; exact .inl rfl
          | ok v2 =>
            obtain ⟨tr, u⟩ := v2
            obtain ⟨n, k1, k2, k3⟩ := binRead_rest hb
            cases (show n = 2 from by simpa [structSize, FTy.size] using k1.symm)
            rw [content_length hrest] at k2
            dsimp only at h
            cases hd : decodePayload m t (rest.skip 2) with
            | panic => rw [hd] at h; cases h
            | ret p =>
              rw [hd] at h
              cases p with
              | error e => cases h; exact .inl rfl
              | ok p => cases h; exact decodePayload_ok (wf_skip hrest k2) hd

/-- Later memory: the arrays are still there, with whatever contents, and there may be more. -/
def Extends (m m' : Mem) : Prop :=
  m.length ≤ m'.length ∧ ∀ i, i < m.length → (m'.getD i []).length = (m.getD i []).length

theorem Extends.refl (m : Mem) : Extends m m := ⟨Nat.le_refl _, fun _ _ => rfl⟩

theorem Extends.trans {a b c : Mem} (h : Extends a b) (k : Extends b c) : Extends a c :=
  ⟨Nat.le_trans h.1 k.1, fun i hi => (k.2 i (Nat.lt_of_lt_of_le hi h.1)).trans (h.2 i hi)⟩

theorem Extends.wf {m m' : Mem} (h : Extends m m') {r : Ref} (hw : WF m r) : WF m' r := by
  obtain ⟨h1, h2⟩ := hw
  refine ⟨h1, ?_⟩
  by_cases hi : r.arr < m.length
  · rw [h.2 _ hi]; exact h2
  · have : m.getD r.arr [] = [] := by simp [List.getElem?_eq_none (Nat.not_lt.1 hi)]
    rw [this] at h2
    simp only [List.length_nil] at h2
    omega

theorem reset_mem (b : Buf) : b.reset.mem = b.mem := by simp [Buf.mem, Buf.reset, Slice.reset]

theorem mem_length (b : Buf) : b.mem.length = b.old.length + 1 := by simp [Buf.mem]

theorem write_extends (grow : Growth) (b : Buf) (p : Bytes) : Extends b.mem (b.write grow p).mem := by
  unfold Buf.write
  by_cases h : p.length ≤ b.cur.spare.length
  · rw [if_pos h]
    refine ⟨by simp [mem_length], fun i hi => ?_⟩
    rw [mem_length] at hi
    by_cases hl : i < b.old.length
    · simp [Buf.mem, List.getElem?_append_left hl]
    · have : i = b.old.length := by omega
      subst this
      have e1 := mem_cur b
      have e2 := mem_cur ⟨b.old, b.cur.write grow p⟩
      dsimp only at e2
      rw [e1, e2]
      simp only [Slice.write, if_pos h, List.length_append, List.length_drop]
      omega
  · rw [if_neg h]
    refine ⟨by simp [mem_length], fun i hi => ?_⟩
    have e : (Buf.mem ⟨b.mem, b.cur.write grow p⟩) =
        b.mem ++ [(b.cur.write grow p).data ++ (b.cur.write grow p).spare] := rfl
    rw [e, List.getD_eq_getElem?_getD, List.getElem?_append_left hi, ← List.getD_eq_getElem?_getD]

theorem readFrameLoop_extends {grow : Growth} {defs : List Hid.ReportDef} {rs rs' : List (Except Err Hid.Report)} {b b' : Buf}
    {f : Except Err Ref} (h : readFrameLoop grow defs rs b = .ret (rs', b', f)) : Extends b.mem b'.mem := by
  induction rs generalizing b with
  | nil => cases h; exact .refl _
  | cons r rs ih =>
    cases r with
    | error e => cases h; exact .refl _
    | ok report =>
      simp only [readFrameLoop] at h
      split at h
      · cases h; exact .refl _
      · split at h
        · cases h
        · split at h
          · cases h
            have := write_extends grow b.reset
            rw [reset_mem] at this
            exact this _
          · split at h
            · have := write_extends grow b.reset
              rw [reset_mem] at this
              exact (this _).trans (ih h)
            · split at h
              · exact (write_extends grow b _).trans (ih h)
              · split at h
                · cases h
                  exact write_extends grow b _
                · exact ih h

theorem readFrame_extends {grow : Growth} {defs : List Hid.ReportDef} {rs rs' : List (Except Err Hid.Report)} {b b' : Buf}
    {f : Except Err Ref} (h : readFrame grow defs rs b = .ret (rs', b', f)) : Extends b.mem b'.mem := by
  have := readFrameLoop_extends h
  rwa [reset_mem] at this

/-- The held token and the token of the model on values. -/
def Agree (m : Mem) (t : TokenValue) (v : FIDTokenValue) : Prop :=
  t.id = v.id ∧
    match t.token with
    | .owned x => v.token = x
    | .eaProtocol i r => WF m r ∧ ∃ s, v.token = .eaProtocol i s ∧ s.length = r.len

theorem Agree.later {m m' : Mem} (h : Extends m m') {t : TokenValue} {v : FIDTokenValue} (ha : Agree m t v) : Agree m' t v := by
  refine ⟨ha.1, ?_⟩
  have := ha.2
  split at this
  · exact this
  · exact ⟨h.wf this.1, this.2⟩

theorem paired_imp {α β : Type} {R S : α → β → Prop} (h : ∀ a b, R a b → S a b) {as : List α} {bs : List β}
    (hp : Spec.Paired R as bs) : Spec.Paired S as bs := by
  induction hp with
  | nil => exact .nil
  | cons h1 _ ih => exact .cons (h _ _ h1) ih

theorem paired_append {α β : Type} {R : α → β → Prop} {as as' : List α} {bs bs' : List β}
    (h : Spec.Paired R as bs) (h' : Spec.Paired R as' bs') : Spec.Paired R (as ++ as') (bs ++ bs') := by
  induction h with
  | nil => exact h'
  | cons h1 _ ih => exact .cons h1 ih

theorem agree_now {m : Mem} {l : List TokenValue} (h : ∀ v ∈ l, TokOK m v) :
    Spec.Paired (Agree m) l (l.map (·.now m)) := by
  induction l with
  | nil => exact .nil
  | cons v l ih =>
    simp only [List.forall_mem_cons] at h
    refine .cons ⟨rfl, ?_⟩ (ih h.2)
    have := h.1
    obtain ⟨id, tok⟩ := v
    cases tok with
    | owned x => rfl
    | eaProtocol i r => exact ⟨this, _, rfl, content_length this⟩

theorem isStartIDPS_ne {c : Ipod.Command} (h : ∀ v, c.payload ≠ .ptr (.gen .StartIDPS) v) : Spec.isStartIDPS c = false := by
  unfold Spec.isStartIDPS
  split
  · rename_i e; exact absurd e (h _)
  · rfl

theorem tokensOf_ne {c : Ipod.Command} (h : ∀ v, c.payload ≠ .ptr (.gen .SetFIDTokenValues) v) : Spec.tokensOf c = [] := by
  unfold Spec.tokensOf
  split
  · rename_i e; exact absurd e (h _)
  · rfl

theorem hold_ne {held : List TokenValue} {c : Command} (h : ∀ v, c.payload ≠ .owned (.ptr (.gen .StartIDPS) v))
    (h' : ∀ l, c.payload ≠ .tokens l) : hold held c = held := by
  unfold hold
  split
  · split
    · rename_i e; exact absurd e (h' _)
    · rename_i e; exact absurd e (h _)
    · rfl
  · rfl

theorem hold_tokens {held : List TokenValue} {c : Command} {l : List TokenValue} (hl : c.id.lingoID = 0x00)
    (h : c.payload = .tokens l) : hold held c = held ++ l := by
  unfold hold
  rw [if_pos hl, h]

theorem hold_start {held : List TokenValue} {c : Command} {v} (hl : c.id.lingoID = 0x00)
    (h : c.payload = .owned (.ptr (.gen .StartIDPS) v)) : hold held c = [] := by
  unfold hold
  rw [if_pos hl, h]

theorem hold_agree {clock : Clock} {m : Mem} {cmd : Command} (hr : Spec.Received (cmd.now m)) (hp : PayOK m cmd.payload)
    {c c' : Ctx DevGeneral} (h : handlePacket devGeneral clock (cmd.now m) c = .ret c') {held : List TokenValue}
    (ha : Spec.Paired (Agree m) held c.dev.tokens) : Spec.Paired (Agree m) (hold held cmd) c'.dev.tokens := by
  have hwf := (received_wf hr).2
  rw [(devGeneral_step hwf h).2]
  clear h c'
  have e0 : (cmd.now m).payload = cmd.payload.now m := rfl
  have ei : (cmd.now m).id = cmd.id := rfl
  clear hr
  generalize hc : cmd.now m = cm at *
  have hgen : ∀ (t : GenT) (v : (TypeId.gen t).Val), cm.payload = .ptr (.gen t) v → LingoCmdID.lingoID cmd.id = 0x00 := by
    intro t v e
    rw [← ei]
    exact lingo_of_gen (cmd := cm) hwf (t := t) (v := v) e
  clear hwf
  cases hq : cmd.payload with
  | tokens l =>
    rw [hq] at hp e0
    rw [hold_tokens (hgen _ _ e0) hq, isStartIDPS_ne (by rw [e0]; exact fun _ h => by cases h)]
    have e2 : Spec.tokensOf cm = l.map (·.now m) := by
      unfold Spec.tokensOf
      rw [e0]
      rfl
    rw [e2]
    exact paired_append ha (agree_now hp)
  | unknown r =>
    rw [hq] at e0
    rw [hold_ne (by rw [hq]; exact fun _ h => by cases h) (by rw [hq]; exact fun _ h => by cases h),
      isStartIDPS_ne (by rw [e0]; exact fun _ h => by cases h), tokensOf_ne (by rw [e0]; exact fun _ h => by cases h)]
    simpa using ha
  | owned p =>
    rw [hq] at hp e0
    rcases hp with rfl | ⟨t, v, rfl, ht⟩
    · rw [hold_ne (by rw [hq]; exact fun _ h => by cases h) (by rw [hq]; exact fun _ h => by cases h),
        isStartIDPS_ne (by rw [e0]; exact fun _ h => by cases h), tokensOf_ne (by rw [e0]; exact fun _ h => by cases h)]
      simpa using ha
    · replace e0 : cm.payload = .ptr t v := e0
      by_cases hs : t = .gen .StartIDPS
      · subst hs
        rw [hold_start (hgen _ _ e0) hq]
        have e1 : Spec.isStartIDPS cm = true := by
          unfold Spec.isStartIDPS
          rw [e0]
        rw [e1]
        exact .nil
      · have k : ∀ {t'} {v' : TypeId.Val t'}, Ipod.Payload.ptr t v = .ptr t' v' → t = t' := fun h => by
          injection h
        rw [hold_ne (by rw [hq]; exact fun _ h => hs (k (Payload.owned.inj h))) (by rw [hq]; exact fun _ h => by cases h),
          isStartIDPS_ne (by rw [e0]; exact fun _ h => hs (k h)), tokensOf_ne (by rw [e0]; exact fun _ h => ht (k h))]
        simpa using ha

theorem holdAll_agree {clock : Clock} {m : Mem} (cmds : List Command) (hr : ∀ x ∈ cmds, Spec.Received (x.now m))
    (hp : ∀ x ∈ cmds, PayOK m x.payload) {c c' : Ctx DevGeneral}
    (h : handleAll devGeneral clock (cmds.map (·.now m)) c = .ret c') {held : List TokenValue}
    (ha : Spec.Paired (Agree m) held c.dev.tokens) : Spec.Paired (Agree m) (cmds.foldl hold held) c'.dev.tokens := by
  induction cmds generalizing c held with
  | nil => cases h; exact ha
  | cons x cmds ih =>
    simp only [List.map_cons, handleAll] at h
    cases h1 : handlePacket devGeneral clock (x.now m) c with
    | panic => rw [h1] at h; cases h
    | ret d =>
      rw [h1] at h
      simp only [List.forall_mem_cons] at hr hp
      exact ih hr.2 hp.2 h (hold_agree hr.1 hp.1 h1 ha)

theorem readCommands_ok {m : Mem} {mode mode' : Bool} {frame : Ref} (hw : WF m frame) {cmds : List Command}
    (h : readCommands m mode frame = .ret (mode', cmds)) :
    ∀ x ∈ cmds, Spec.Received (x.now m) ∧ PayOK m x.payload := by
  rw [readCommands_eq] at h
  rcases readPacket_view hw with ⟨a1, a2⟩ | ⟨rest, r, a1, a2, a3, a4⟩
  · rw [a1] at h; cases h
  rw [a1] at h
  have hs := readPacket_shorter a1
  cases r with
  | error e =>
    dsimp only at h
    by_cases he : e = .eof
    · rw [if_pos he] at h; cases h; simp
    · rw [if_neg he] at h
      have : rest.len < frame.len := hs.resolve_left (fun h => he (Except.error.inj h))
      exact readCommands_ok a3 h
  | ok p =>
    have : rest.len < frame.len := hs.resolve_left (fun h => by cases h)
    dsimp only at h
    have hn := unmarshalCmd_now (a4 p rfl) mode
    cases hu : unmarshalCmd m mode p with
    | panic => rw [hu] at h; cases h
    | ret x =>
      obtain ⟨mode1, cmd, err⟩ := x
      rw [hu] at h hn
      simp only [Out.bind_ret] at h hn
      cases hy : readCommands m mode1 rest with
      | panic => rw [hy] at h; cases h
      | ret y =>
        rw [hy] at h
        cases h
        simp only [List.forall_mem_cons]
        exact ⟨⟨⟨mode, content m p, mode1, err, hn.symm⟩, unmarshalCmd_ok (a4 p rfl) hu⟩,
          readCommands_ok (mode' := y.1) a3 hy⟩
termination_by frame.len

theorem processFrame_agree {clock : Clock} {m : Mem} {frame : Ref} (hw : WF m frame) {s s' : Ipod.Srv DevGeneral} {t t' : Srv}
    {out out' : List Bytes} (h : processFrame clock m t frame = .ret (t', out)) (hm : s.mode = t.srv.mode)
    (h' : Ipod.processFrame devGeneral clock s (view m frame) = .ret (s', out'))
    (ha : Spec.Paired (Agree m) t.held s.ctx.dev.tokens) : Spec.Paired (Agree m) t'.held s'.ctx.dev.tokens := by
  unfold processFrame at h
  unfold Ipod.processFrame at h'
  rw [readCommands_now hw, hm] at h'
  cases hx : readCommands m t.srv.mode frame with
  | panic => rw [hx] at h; cases h
  | ret x =>
    rw [hx] at h h'
    simp only [Out.bind_ret] at h h'
    have hok := readCommands_ok (mode' := x.1) (cmds := x.2) hw hx
    cases hc : handleAll devGeneral clock (x.2.map (·.now m)) { s.ctx with out := [] } with
    | panic => rw [hc] at h'; cases h'
    | ret c =>
      rw [hc] at h'
      cases hd : handleAll devGeneral clock (x.2.map (·.now m)) { (t.now m).ctx with out := [] } with
      | panic => rw [hd] at h; cases h
      | ret d =>
        rw [hd] at h
        cases h
        cases h'
        exact holdAll_agree x.2 (fun y hy => (hok y hy).1) (fun y hy => (hok y hy).2) hc ha

/-- After a session the held tokens are those of the model on values, up to the bytes of EAProtocol strings. -/
theorem processFrames_agree {clock : Clock} {grow : Growth} {defs : List Hid.ReportDef} (hd : ∀ d ∈ defs, 0 ≤ d.maxPayload)
    (n : Nat) (rs : List (Except Err Hid.Report)) (b b' : Buf) {s s' : Ipod.Srv DevGeneral} {t t' : Srv}
    {out out' : List Bytes} (hm : s.mode = t.srv.mode) (hs : SameBut s.ctx t.srv.ctx)
    (h : processFrames clock grow defs n rs b t = .ret (b', t', out))
    (h' : (frameReads grow defs n rs b.cur >>= fun fs => Ipod.processFrames devGeneral clock fs s) = .ret (s', out'))
    (ha : Spec.Paired (Agree b.mem) t.held s.ctx.dev.tokens) :
    Spec.Paired (Agree b'.mem) t'.held s'.ctx.dev.tokens := by
  induction n generalizing rs b s t out out' with
  | zero => cases h; cases h'; exact ha
  | succ n ih =>
    obtain ⟨x, hx⟩ := readFrameLoop_total (grow := grow) hd rs b.cur.reset
    have hc := readFrame_cur grow defs rs b
    simp only [Hid.readFrame, hx] at hc
    cases hr : readFrame grow defs rs b with
    | panic => rw [hr] at hc; cases hc
    | ret y =>
      obtain ⟨rs', b1, f⟩ := y
      rw [hr] at hc
      simp only [Out.bind_ret, Out.ret.injEq] at hc
      subst hc
      have hext := readFrame_extends hr
      have ha1 : Spec.Paired (Agree b1.mem) t.held s.ctx.dev.tokens := paired_imp (fun _ _ h => h.later hext) ha
      simp only [processFrames, frameReads, Hid.readFrame, hx, hr, Out.bind_ret] at h h'
      obtain ⟨fs, hfs⟩ := frameReads_total (grow := grow) hd n rs' b1.cur
      rw [hfs] at h'
      simp only [Out.bind_ret] at h'
      cases f with
      | error e =>
        by_cases he : e = .eof
        · subst he
          simp only [if_true] at h
          simp only [Except.map, Ipod.processFrames] at h'
          cases h; cases h'; exact ha1
        · simp only [Except.map, if_neg he] at h h'
          have e2 : Ipod.processFrames devGeneral clock (.error e :: fs) s = Ipod.processFrames devGeneral clock fs s := by
            cases e <;> first | rfl | exact absurd rfl he
          rw [e2] at h'
          exact ih rs' b1 hm hs h (by rw [hfs]; exact h') ha1
      | ok frame =>
        have hf : frame = b1.bytes := readFrameLoop_frame hr
        subst hf
        simp only [Except.map, Ipod.processFrames] at h h'
        rcases processFrame_same (clock := clock) (bytes_wf b1) hm hs with ⟨a1, a2⟩ | ⟨t1, s1, o1, a1, a2, a3, a4⟩
        · rw [a1] at h; cases h
        · have ha2 := processFrame_agree (bytes_wf b1) a1 hm a2 ha1
          rw [a1] at h
          rw [a2] at h'
          simp only [Out.bind_ret] at h h'
          cases hp : processFrames clock grow defs n rs' b1 t1 with
          | panic => rw [hp] at h; cases h
          | ret z =>
            cases hq : Ipod.processFrames devGeneral clock fs s1 with
            | panic => rw [hq] at h'; cases h'
            | ret w =>
              rw [hp] at h
              rw [hq] at h'
              cases h
              cases h'
              exact ih rs' b1 (out := z.2.2) (out' := w.2) a3 a4 hp (by rw [hfs]; exact hq) ha2

end Ipod.Alias
