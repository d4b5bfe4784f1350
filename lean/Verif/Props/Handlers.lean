import Verif.Lemmas.Handlers

/-! # Properties C46–C52, C59, C61: the lingo handlers -/

namespace Props
open Go Spec Ipod

/-- The handlers always return, and only append to what was emitted before. -/
theorem handles_total {σ : Type} (D : Device σ) (clock : Clock) (cmd : Command) (c : Ctx σ) :
    ∃ c' new, Handles D clock cmd c c' new := by
  obtain ⟨c', new, h1, h2, _⟩ := handlePacket_emits D clock cmd c
  exact ⟨c', _, h1, h2⟩

theorem handles_mem {σ : Type} {D : Device σ} {clock : Clock} {cmd : Command} {c c' : Ctx σ} {new : List Command}
    (h : Handles D clock cmd c c' new) {x : Command} (hx : x ∈ new) :
    x = audioStartCmd c.counter ∧ cmd.id.lingoID = 0x00 ∧ authComplete cmd.payload = true ∨
    EmitOK cmd.id.lingoID cmd c.counter x := by
  obtain ⟨c'', new', h1, h2, h3⟩ := handlePacket_emits D clock cmd c
  obtain ⟨ha, hb⟩ := h
  rw [h1] at ha; cases ha
  rw [new_unique hb h2] at hx
  rcases List.mem_append.1 hx with hx | hx
  · split at hx
    · rename_i hc
      exact .inl ⟨by simpa using hx, hc⟩
    · simp at hx
  · exact .inr (h3 x hx)

/-! ## C46 -/

/-- C46. Whatever is emitted while handling a request carries the request's transaction, unless the device originates
it. -/
theorem C46_response_transaction {σ : Type} {D : Device σ} {clock : Clock} {cmd : Command} {c c' : Ctx σ}
    {new : List Command} (h : Handles D clock cmd c c' new) (x : Command) (hx : x ∈ new)
    (ho : ¬ DeviceOriginated cmd x) : x.trx = cmd.trx := by
  rcases handles_mem h hx with ⟨rfl, _⟩ | hx
  · exact absurd (.inl rfl) ho
  · exact hx.trx ho

/-- C46. Requests the device originates carry the next fresh number. -/
theorem C46_originated_transaction {σ : Type} {D : Device σ} {clock : Clock} {cmd : Command} {c c' : Ctx σ}
    {new : List Command} (h : Handles D clock cmd c c' new) (x : Command) (hx : x ∈ new)
    (ho : DeviceOriginated cmd x) : x.trx = some (trxNext c.counter).2 := by
  rcases handles_mem h hx with ⟨rfl, _⟩ | hx
  · rfl
  · exact hx.fresh ho

/-- The request for sample rates that follows the last part of the certificate. -/
example {σ : Type} (D : Device σ) (clock : Clock) (c : Ctx σ) : ∃ c' new,
    Handles D clock ⟨TypeId.id (.gen .RetDevAuthenticationInfo), none, .ptr (.gen .RetDevAuthenticationInfo) (2, 0, 1, 1, [0x30], ())⟩ c c' new ∧
    ∀ x ∈ new, x.payload = .ptr (.aud .GetAccSampleRateCaps) () → x.trx = some (trxNext c.counter).2 :=
  have ⟨c', new, h⟩ := handles_total D clock _ c
  ⟨c', new, h, fun x hx hp => C46_originated_transaction h x hx (.inl hp)⟩

theorem out0 {a new : List Command} (h : a = a ++ new) : new = [] := by simpa using h
theorem out1 {a new : List Command} {x : Command} (h : a ++ [x] = a ++ new) : new = [x] :=
  (List.append_cancel_left h).symm
theorem out2 {a new : List Command} {x y : Command} (h : a ++ [x] ++ [y] = a ++ new) : new = [x, y] := by
  rw [List.append_assoc] at h; exact (List.append_cancel_left h).symm

theorem general_counter {σ : Type} {D : Device σ} {cmd : Command} {c c' : Ctx σ} {new : List Command}
    (h : handleGeneral D cmd c = .ret c') (ho : c'.out = c.out ++ new) :
    (new.filter fun x => DeviceOriginated cmd x).length ≤ 1 ∧
    c'.counter = (if isStartIDPS cmd then 0
      else c.counter + UInt32.ofNat (new.filter fun x => DeviceOriginated cmd x).length) := by
  unfold handleGeneral at h
  split at h
  all_goals try simp only [Ctx.ack, Ctx.ackSuccess, Ctx.ackPending, respond_eq, send_eq, out_ret_bind] at h
  all_goals repeat' split at h
  all_goals cases h
  all_goals first
    | (have := out0 ho; subst this)
    | (have := out1 ho; subst this)
    | (have := out2 ho; subst this)
  all_goals first
    | (simp [isStartIDPS, DeviceOriginated, trxReset, *]; done)
    | (simp_all [isStartIDPS]; done)

/-- C46. At most one command per request is originated by the device, and exactly those advance the counter the numbers
are taken from; StartIDPS resets it. -/
theorem C46_fresh_numbers {σ : Type} {D : Device σ} {clock : Clock} {cmd : Command} {c c' : Ctx σ}
    {new : List Command} (h : Handles D clock cmd c c' new) (hr : Received cmd) :
    (new.filter fun x => DeviceOriginated cmd x).length ≤ 1 ∧
    c'.counter = (if isStartIDPS cmd then 0
      else c.counter + UInt32.ofNat (new.filter fun x => DeviceOriginated cmd x).length) := by
  by_cases hl : cmd.id.lingoID = 0x00
  · obtain ⟨h1, h2⟩ := h
    rw [handlePacket_general _ _ _ _ hl] at h1
    by_cases ha : authComplete cmd.payload = true
    · have hn : isStartIDPS cmd = false := by
        unfold isStartIDPS; split
        · rename_i hp; rw [hp] at ha; cases ha
        · rfl
      obtain ⟨d, hd, new', hd2, hd3⟩ := handleGeneral_emits D cmd (afterAudio cmd c)
      rw [h1] at hd; cases hd
      have hc := general_counter h1 hd2
      simp only [afterAudio, if_pos ha] at hd2 hc hd3
      have he : new = audioStartCmd c.counter :: new' := by
        rw [h2] at hd2
        simpa using hd2
      have hz : new'.filter (fun x => DeviceOriginated cmd x) = [] := by
        rw [List.filter_eq_nil_iff]
        intro x hx hc
        rcases of_decide_eq_true hc with h | ⟨⟨v, h⟩, _⟩
        · exact (hd3 x hx).notStart h
        · rw [h] at ha; cases ha
      have ho : decide (DeviceOriginated cmd (audioStartCmd c.counter)) = true := decide_eq_true (.inl rfl)
      rw [hz, hn] at hc
      rw [he, List.filter_cons_of_pos (p := fun x => decide (DeviceOriginated cmd x)) ho, hz, hn, hc.2]
      simp
    · have e : afterAudio cmd c = c := by simp [afterAudio, ha]
      rw [e] at h1
      exact general_counter h1 h2
  · have hw := (received_wf hr).2
    have hno : ∀ (t : GenT) v, cmd.payload ≠ .ptr (.gen t) v := fun t v hp => hl (lingo_of_gen hw hp)
    have hz : new.filter (fun x => DeviceOriginated cmd x) = [] := by
      rw [List.filter_eq_nil_iff]
      intro x hx hc
      rcases handles_mem h hx with ⟨_, h0, _⟩ | hx
      · exact hl h0
      rcases of_decide_eq_true hc with h | ⟨⟨v, h⟩, _⟩
      · exact hx.notStart h
      · exact hno _ _ h
    have hs : isStartIDPS cmd = false := by
      unfold isStartIDPS; split
      · exact absurd ‹_› (hno _ _)
      · rfl
    rw [hz, hs, (handlePacket_other hl h.1).2.2]
    simp

/-- RequestiPodName as received with transaction 7. -/
def nameRequest : Command := ⟨TypeId.id (.gen .RequestiPodName), some 7, .ptr (.gen .RequestiPodName) ()⟩

theorem nameRequest_received : Received nameRequest :=
  ⟨true, [0x00, 0x07, 0x00, 0x07], true, none, by decide +kernel⟩

example {σ : Type} (D : Device σ) (clock : Clock) (c : Ctx σ) : ∃ c' new, Handles D clock nameRequest c c' new ∧
    (new.filter fun x => DeviceOriginated nameRequest x).length ≤ 1 :=
  have ⟨c', new, h⟩ := handles_total D clock nameRequest c
  ⟨c', new, h, (C46_fresh_numbers h nameRequest_received).1⟩

example (clock : Clock) (c : Ctx DevGeneral) : ∃ c' x, Handles devGeneral clock nameRequest c c' [x] ∧ x.trx = nameRequest.trx :=
  ⟨_, _, ⟨by rw [handlePacket_general _ _ _ _ (by decide +kernel)]; simp only [handleGeneral, nameRequest, respond_eq]; rfl, rfl⟩,
    C46_response_transaction (D := devGeneral) (clock := clock) (c := c) (cmd := nameRequest)
      ⟨by rw [handlePacket_general _ _ _ _ (by decide +kernel)]; simp only [handleGeneral, nameRequest, respond_eq]; rfl, rfl⟩ _
      (List.mem_singleton.2 rfl) (by simp [DeviceOriginated])⟩

example (clock : Clock) (c : Ctx DevGeneral) : ∃ c' x, Handles devGeneral clock nameRequest c c' [x] ∧ x.trx = some 7 ∧
    ¬ DeviceOriginated nameRequest x :=
  ⟨_, _, ⟨by rw [handlePacket_general _ _ _ _ (by decide +kernel)]; simp only [handleGeneral, nameRequest, respond_eq]; rfl,
    rfl⟩, rfl, by simp [DeviceOriginated]⟩

/-! ## C47 -/

/-- C47. An acknowledgement names the request it answers, and is of the same lingo. -/
theorem C47_ack_names_request {σ : Type} {D : Device σ} {clock : Clock} {cmd : Command} {c c' : Ctx σ}
    {new : List Command} (h : Handles D clock cmd c c' new) (hr : Received cmd) (x : Command) (hx : x ∈ new)
    (n : Nat) (ha : AckFor x.payload n) :
    n = (LingoCmdID.cmdID cmd.id).toNat ∧ LingoCmdID.lingoID x.id = LingoCmdID.lingoID cmd.id := by
  rcases handles_mem h hx with ⟨rfl, _⟩ | hx
  · exact absurd ha (ackFor_other (by simp))
  · obtain ⟨t, v, _, h2, h3⟩ := hx.typed
    refine ⟨?_, by rw [h2, ← h3]; exact lingoID_id t⟩
    have := hx.ack n ha
    obtain ⟨l, k, he, hf⟩ := (received_wf hr).1
    have hk : LingoCmdID.cmdID cmd.id = k := by rw [he]; simp
    have hl : LingoCmdID.lingoID cmd.id = l := by rw [he]; simp
    rw [hl, hk] at this
    rw [this, hk]
    split at this
    · rw [if_pos ‹_›]; exact Nat.mod_eq_of_lt k.toNat_lt
    · rw [if_neg ‹_›]; exact Nat.mod_eq_of_lt (by simpa [*] using hf)

example {σ : Type} (D : Device σ) (clock : Clock) (c : Ctx σ) : ∃ c' new,
    Handles D clock ⟨TypeId.id (.gen .SetUIMode), none, .ptr (.gen .SetUIMode) (0x01, ())⟩ c c' new ∧
    ∀ x ∈ new, ∀ n, AckFor x.payload n → n = 0x37 :=
  have ⟨c', new, h⟩ := handles_total D clock _ c
  ⟨c', new, h, fun x hx n ha =>
    (C47_ack_names_request h ⟨false, [0x00, 0x37, 0x01], false, none, by decide +kernel⟩ x hx n ha).1.trans (by decide +kernel)⟩

/-! ## C48 -/

/-- C48. Every emitted command is a registered message under its own id, of the request's lingo except for the audio
start-up request. -/
theorem C48_valid_messages {σ : Type} {D : Device σ} {clock : Clock} {cmd : Command} {c c' : Ctx σ}
    {new : List Command} (h : Handles D clock cmd c c' new) (x : Command) (hx : x ∈ new) :
    ∃ t v, x.payload = .ptr t v ∧ registry.lookupID t = some x.id ∧
      (LingoCmdID.lingoID x.id = LingoCmdID.lingoID cmd.id ∨ t = .aud .GetAccSampleRateCaps) := by
  rcases handles_mem h hx with ⟨rfl, _⟩ | hx
  · exact ⟨_, _, rfl, lookupID_eq _, .inr rfl⟩
  · obtain ⟨t, v, h1, h2, h3⟩ := hx.typed
    exact ⟨t, v, h1, by rw [h2]; exact lookupID_eq t, .inl (by rw [h2, ← h3]; exact lingoID_id t)⟩

example {σ : Type} (D : Device σ) (clock : Clock) (c : Ctx σ) : ∃ c' new, Handles D clock nameRequest c c' new ∧
    ∀ x ∈ new, ∃ t v, x.payload = .ptr t v ∧ registry.lookupID t = some x.id :=
  have ⟨c', new, h⟩ := handles_total D clock nameRequest c
  ⟨c', new, h, fun x hx => have ⟨t, v, h1, h2, _⟩ := C48_valid_messages h x hx; ⟨t, v, h1, h2⟩⟩

/-! ## C49 -/

theorem handleAll_append {σ : Type} (D : Device σ) (clock : Clock) (a b : List Command) (c : Ctx σ) :
    handleAll D clock (a ++ b) c = handleAll D clock a c >>= handleAll D clock b := by
  induction a generalizing c with
  | nil => rfl
  | cons x a ih =>
    simp only [List.cons_append, handleAll]
    cases handlePacket D clock x c with
    | panic => rfl
    | ret c' => exact ih c'

/-- Any history is handled to the end. -/
theorem handleAll_total {σ : Type} (D : Device σ) (clock : Clock) (cmds : List Command) (c : Ctx σ) :
    ∃ c', handleAll D clock cmds c = .ret c' := by
  induction cmds generalizing c with
  | nil => exact ⟨c, rfl⟩
  | cons x cmds ih =>
    obtain ⟨c', _, h, _⟩ := handles_total D clock x c
    obtain ⟨c'', h'⟩ := ih c'
    exact ⟨c'', by rw [handleAll, h]; exact h'⟩

theorem handleAll_snoc {σ : Type} {D : Device σ} {clock : Clock} {cmds : List Command} {x : Command} {c c' : Ctx σ}
    (h : handleAll D clock (cmds ++ [x]) c = .ret c') :
    ∃ d, handleAll D clock cmds c = .ret d ∧ handlePacket D clock x d = .ret c' := by
  rw [handleAll_append] at h
  obtain ⟨d, hd⟩ := handleAll_total D clock cmds c
  refine ⟨d, hd, ?_⟩
  rw [hd, out_ret_bind, handleAll] at h
  obtain ⟨e, _, he, _⟩ := handles_total D clock x d
  rw [he] at h ⊢
  exact h

/-- The device of cmd/ipod after a history. -/
theorem devGeneral_history {clock : Clock} (cmds : List Command) (hr : ∀ x ∈ cmds, Received x) {c c' : Ctx DevGeneral}
    (h0 : c.dev = DevGeneral.zero) (h : handleAll devGeneral clock cmds c = .ret c') :
    c'.dev.uimode = (if EnteredLast cmds then 1 else 0) ∧ c'.dev.tokens = tokensSinceStart cmds := by
  obtain ⟨r, rfl⟩ : ∃ r : List Command, cmds = r.reverse := ⟨cmds.reverse, by simp⟩
  induction r generalizing c' with
  | nil => cases h; rw [h0]; exact ⟨rfl, rfl⟩
  | cons x r ih =>
    rw [List.reverse_cons] at h hr ⊢
    generalize r.reverse = cmds at *
    obtain ⟨d, hd, hx⟩ := handleAll_snoc h
    obtain ⟨i1, i2⟩ := ih (fun y hy => hr y (by simp [hy])) hd
    obtain ⟨s1, s2⟩ := devGeneral_step (received_wf (hr x (by simp))).2 hx
    rw [i1] at s1
    rw [i2] at s2
    refine ⟨?_, ?_⟩
    · rw [s1]
      simp only [EnteredLast, List.filterMap_append, List.filterMap_cons, List.filterMap_nil]
      cases remoteSwitch x with
      | none => simp
      | some b =>
        cases b
        · by_cases hq : EnteredLast cmds <;> simp
        · simp
    · rw [s2]
      simp only [tokensSinceStart, List.reverse_append, List.reverse_cons, List.reverse_nil, List.nil_append,
        List.cons_append, List.takeWhile_cons]
      cases isStartIDPS x <;> simp

/-- C49. After any history of received commands the UI mode reported is Extended iff the last Enter/Exit was Enter; both
queries agree. -/
theorem C49_reported_mode {clock : Clock} (cmds : List Command) (hr : ∀ x ∈ cmds, Received x) (c0 c c' : Ctx DevGeneral)
    (h0 : c0.dev = DevGeneral.zero) (h : handleAll devGeneral clock cmds c0 = .ret c) (q : Command) (hq : Received q)
    (new : List Command) (hn : Handles devGeneral clock q c c' new) :
    ((∃ v, q.payload = .ptr (.gen .RequestRemoteUIMode) v) → new.map (·.payload) =
      [.ptr (.gen .ReturnRemoteUIMode) (if EnteredLast cmds then 0x01 else 0x00, ())]) ∧
    ((∃ v, q.payload = .ptr (.gen .GetUIMode) v) → new.map (·.payload) =
      [.ptr (.gen .RetUIMode) (if EnteredLast cmds then 0x01 else 0x00, ())]) := by
  have hu := (devGeneral_history cmds hr h0 h).1
  have hw := (received_wf hq).2
  refine ⟨?_, ?_⟩
  · rintro ⟨v, hp⟩
    obtain ⟨h1, h2⟩ := hn
    rw [handlePacket_general _ _ _ _ (lingo_of_gen hw hp)] at h1
    simp only [afterAudio, hp, authComplete, Bool.false_eq_true, if_false, handleGeneral, respond_eq] at h1
    cases h1
    have := out1 h2; subst this
    have e : devGeneral.uiMode c.dev = if EnteredLast cmds then 1 else 0 := hu
    simp only [List.map_cons, List.map_nil, e, boolToByte, uiModeExtended]
    by_cases hq : EnteredLast cmds <;> simp [hq]
  · rintro ⟨v, hp⟩
    obtain ⟨h1, h2⟩ := hn
    rw [handlePacket_general _ _ _ _ (lingo_of_gen hw hp)] at h1
    simp only [afterAudio, hp, authComplete, Bool.false_eq_true, if_false, handleGeneral, respond_eq] at h1
    cases h1
    have := out1 h2; subst this
    have e : devGeneral.uiMode c.dev = if EnteredLast cmds then 1 else 0 := hu
    simp only [List.map_cons, List.map_nil, e]

/-- C49. Entering or leaving sends a pending ACK, then a success ACK when the mode changes, and only a success ACK when it
does not. -/
theorem C49_mode_acks {σ : Type} {D : Device σ} {clock : Clock} {q : Command} {c c' : Ctx σ} {new : List Command}
    (hq : Received q) (hn : Handles D clock q c c' new) (enter : Bool) (hs : remoteSwitch q = some enter) :
    new.map (·.payload) =
      (if (D.uiMode c.dev = 0x01) = (enter = true) then [] else
        [.ptr (.gen .ACKPending) (0x06, if enter then 0x05 else 0x06, 300, ())]) ++
      [.ptr (.gen .ACK) (0x00, if enter then 0x05 else 0x06, ())] ∧
    c'.dev = (if (D.uiMode c.dev = 0x01) = (enter = true) then c.dev else
      D.setUIMode c.dev (if enter then 0x01 else 0x00)) := by
  have hw := (received_wf hq).2
  obtain ⟨h1, h2⟩ := hn
  unfold remoteSwitch at hs
  split at hs
  · rename_i v hp
    cases hs
    rw [handlePacket_general _ _ _ _ (lingo_of_gen hw hp)] at h1
    have hid : LingoCmdID.cmdID q.id = 0x05 := by rw [hw _ _ hp]; decide +kernel
    simp only [afterAudio, hp, authComplete, Bool.false_eq_true, if_false, handleGeneral, Ctx.ackPending, Ctx.ackSuccess,
      respond_eq, out_ret_bind, hid] at h1
    split at h1
    · rename_i hm
      cases h1
      have := out1 h2; subst this
      simp [show D.uiMode c.dev = 1 from hm]
    · rename_i hm
      cases h1
      have := out2 h2; subst this
      simp [show ¬ D.uiMode c.dev = 1 from hm]
  · rename_i v hp
    cases hs
    rw [handlePacket_general _ _ _ _ (lingo_of_gen hw hp)] at h1
    have hid : LingoCmdID.cmdID q.id = 0x06 := by rw [hw _ _ hp]; decide +kernel
    simp only [afterAudio, hp, authComplete, Bool.false_eq_true, if_false, handleGeneral, Ctx.ackPending, Ctx.ackSuccess,
      respond_eq, out_ret_bind, hid] at h1
    split at h1
    · rename_i hm
      cases h1
      have := out1 h2; subst this
      simp [show ¬ D.uiMode c.dev = 1 from hm]
    · rename_i hm
      cases h1
      have := out2 h2; subst this
      have hm : D.uiMode c.dev = 1 := Decidable.not_not.1 hm
      simp [hm]
  · cases hs

/-- EnterRemoteUIMode while the mode is Standard. -/
example (clock : Clock) (c : Ctx DevGeneral) (h0 : c.dev = DevGeneral.zero) :
    ∃ c' new, Handles devGeneral clock ⟨TypeId.id (.gen .EnterRemoteUIMode), none, .ptr (.gen .EnterRemoteUIMode) ()⟩ c c' new ∧
      new.map (·.payload) = [.ptr (.gen .ACKPending) (0x06, 0x05, 300, ()), .ptr (.gen .ACK) (0x00, 0x05, ())] := by
  obtain ⟨c', new, h⟩ := handles_total devGeneral clock ⟨TypeId.id (.gen .EnterRemoteUIMode), none, .ptr (.gen .EnterRemoteUIMode) ()⟩ c
  refine ⟨c', new, h, ?_⟩
  have := (C49_mode_acks ⟨false, [0x00, 0x05], false, none, by decide +kernel⟩ h true (by decide +kernel)).1
  rw [this, h0]
  rfl

/-! ## C52 -/

/-- C52. After any history of received commands the device holds exactly the tokens received since the last StartIDPS. -/
theorem C52_tokens_held {clock : Clock} (cmds : List Command) (hr : ∀ x ∈ cmds, Received x) (c0 c : Ctx DevGeneral)
    (h0 : c0.dev = DevGeneral.zero) (h : handleAll devGeneral clock cmds c0 = .ret c) :
    c.dev.tokens = tokensSinceStart cmds :=
  (devGeneral_history cmds hr h0 h).2

/-- A history in which the accessory enters the remote UI mode, sends tokens, restarts, and sends another token. -/
def sampleHistory : List Command :=
  [⟨TypeId.id (.gen .EnterRemoteUIMode), none, .ptr (.gen .EnterRemoteUIMode) ()⟩,
   ⟨TypeId.id (.gen .SetFIDTokenValues), none, .ptr (.gen .SetFIDTokenValues) ([⟨⟨0, 1⟩, .accCaps 5⟩], ())⟩,
   ⟨TypeId.id (.gen .StartIDPS), none, .ptr (.gen .StartIDPS) ()⟩,
   ⟨TypeId.id (.gen .SetFIDTokenValues), some 3, .ptr (.gen .SetFIDTokenValues) ([⟨⟨0, 1⟩, .accCaps 6⟩], ())⟩]

theorem sampleHistory_received : ∀ x ∈ sampleHistory, Received x := by
  simp only [sampleHistory, List.forall_mem_cons, List.not_mem_nil, false_imp_iff, implies_true, and_true]
  refine ⟨⟨false, [0x00, 0x05], false, none, by decide +kernel⟩,
    ⟨false, [0x00, 0x39, 0x01, 0x0A, 0x00, 0x01, 0, 0, 0, 0, 0, 0, 0, 5], false, none, by decide +kernel⟩,
    ⟨false, [0x00, 0x38], true, none, by decide +kernel⟩,
    ⟨true, [0x00, 0x39, 0x00, 0x03, 0x01, 0x0A, 0x00, 0x01, 0, 0, 0, 0, 0, 0, 0, 6], true, none, by decide +kernel⟩⟩

example (clock : Clock) (c0 : Ctx DevGeneral) (h0 : c0.dev = DevGeneral.zero) : ∃ c, handleAll devGeneral clock sampleHistory c0 = .ret c ∧
    c.dev.tokens = [⟨⟨0, 1⟩, .accCaps 6⟩] :=
  have ⟨c, h⟩ := handleAll_total devGeneral clock sampleHistory c0
  ⟨c, h, (C52_tokens_held sampleHistory sampleHistory_received c0 c h0 h).trans (by decide +kernel)⟩

example : EnteredLast sampleHistory ∧ tokensSinceStart sampleHistory = [⟨⟨0, 1⟩, .accCaps 6⟩] := by decide +kernel

/-! ## C50 -/

/-- SetUIMode is acknowledged and changes nothing. -/
theorem setUIMode_handled {σ : Type} (D : Device σ) (clock : Clock) (q : Command) (hq : Received q) (m : UInt8)
    (hp : q.payload = .ptr (.gen .SetUIMode) (m, ())) (c : Ctx σ) :
    ∃ c', Handles D clock q c c' [⟨TypeId.id (.gen .ACK), q.trx, .ptr (.gen .ACK) (0x00, 0x37, ())⟩] ∧ c'.dev = c.dev := by
  have hw := (received_wf hq).2
  have hid : LingoCmdID.cmdID q.id = 0x37 := by rw [hw _ _ hp]; decide +kernel
  refine ⟨{ c with out := c.out ++ [⟨TypeId.id (.gen .ACK), q.trx, .ptr (.gen .ACK) (0x00, 0x37, ())⟩] }, ⟨?_, rfl⟩, rfl⟩
  rw [handlePacket_general _ _ _ _ (lingo_of_gen hw hp)]
  simp only [afterAudio, hp, authComplete, Bool.false_eq_true, if_false, handleGeneral, Ctx.ackSuccess, respond_eq, hid]
  rfl

/-- C50 (partial): an acknowledged SetUIMode(m) is visible to a following GetUIMode iff m was the mode already. Missing:
the property itself, which is violated, see `C50_fails`. -/
theorem C50_setUIMode_iff_partial {σ : Type} (D : Device σ) (clock : Clock) (q g : Command) (hq : Received q)
    (hg : Received g) (m : UInt8) (hp : q.payload = .ptr (.gen .SetUIMode) (m, ())) (v : (TypeId.gen .GetUIMode).Val)
    (hgp : g.payload = .ptr (.gen .GetUIMode) v) (c c1 c2 : Ctx σ) (new1 new2 : List Command)
    (h1 : Handles D clock q c c1 new1) (h2 : Handles D clock g c1 c2 new2) :
    new1.map (·.payload) = [.ptr (.gen .ACK) (0x00, 0x37, ())] ∧
    (new2.map (·.payload) = [.ptr (.gen .RetUIMode) (m, ())] ↔ D.uiMode c.dev = m) := by
  obtain ⟨d, ⟨e1, e2⟩, e3⟩ := setUIMode_handled D clock q hq m hp c
  obtain ⟨a1, a2⟩ := h1
  rw [e1] at a1; cases a1
  rw [new_unique a2 e2]
  refine ⟨rfl, ?_⟩
  obtain ⟨b1, b2⟩ := h2
  rw [handlePacket_general _ _ _ _ (lingo_of_gen (received_wf hg).2 hgp)] at b1
  simp only [afterAudio, hgp, authComplete, Bool.false_eq_true, if_false, handleGeneral, respond_eq, e3] at b1
  cases b1
  have := out1 b2; subst this
  simp

def setExtended : Command := ⟨TypeId.id (.gen .SetUIMode), none, .ptr (.gen .SetUIMode) (0x01, ())⟩
def getUIMode : Command := ⟨TypeId.id (.gen .GetUIMode), none, .ptr (.gen .GetUIMode) ()⟩

theorem setExtended_received : Received setExtended := ⟨false, [0x00, 0x37, 0x01], false, none, by decide +kernel⟩
theorem getUIMode_received : Received getUIMode := ⟨false, [0x00, 0x35], false, none, by decide +kernel⟩

example {σ : Type} (D : Device σ) (clock : Clock) (c : Ctx σ) : ∃ c1 c2 new1 new2, Handles D clock setExtended c c1 new1 ∧
    Handles D clock getUIMode c1 c2 new2 ∧ (new2.map (·.payload) = [.ptr (.gen .RetUIMode) (0x01, ())] ↔ D.uiMode c.dev = 0x01) :=
  have ⟨c1, new1, h1⟩ := handles_total D clock setExtended c
  have ⟨c2, new2, h2⟩ := handles_total D clock getUIMode c1
  ⟨c1, c2, new1, new2, h1, h2,
    (C50_setUIMode_iff_partial D clock setExtended getUIMode setExtended_received getUIMode_received 0x01 rfl () rfl c c1 c2 new1 new2 h1 h2).2⟩

example (clock : Clock) (c0 : Ctx DevGeneral) (h0 : c0.dev = DevGeneral.zero) : ∃ c c' new, handleAll devGeneral clock sampleHistory c0 = .ret c ∧
    Handles devGeneral clock getUIMode c c' new ∧ new.map (·.payload) = [.ptr (.gen .RetUIMode) (0x01, ())] :=
  have ⟨c, h⟩ := handleAll_total devGeneral clock sampleHistory c0
  have ⟨c', new, hn⟩ := handles_total devGeneral clock getUIMode c
  ⟨c, c', new, h, hn, by
    rw [(C49_reported_mode sampleHistory sampleHistory_received c0 c c' h0 h getUIMode getUIMode_received new hn).2 ⟨_, rfl⟩,
      if_pos (by decide +kernel)]⟩

/-- C50, negation: SetUIMode(Extended) is acknowledged with success, and GetUIMode then reports Standard. -/
theorem C50_fails (clock : Clock) (c : Ctx DevGeneral) (h0 : c.dev = DevGeneral.zero) :
    ∃ c1 c2 new1 new2, Handles devGeneral clock setExtended c c1 new1 ∧ Handles devGeneral clock getUIMode c1 c2 new2 ∧
      new1.map (·.payload) = [.ptr (.gen .ACK) (0x00, 0x37, ())] ∧
      new2.map (·.payload) = [.ptr (.gen .RetUIMode) (0x00, ())] := by
  obtain ⟨c1, e, e3⟩ := setUIMode_handled devGeneral clock setExtended setExtended_received 0x01 rfl c
  obtain ⟨c2, new2, e'⟩ := handles_total devGeneral clock getUIMode c1
  refine ⟨c1, c2, _, new2, e, e', rfl, ?_⟩
  have := (C49_reported_mode (clock := clock) [] (by simp) c1 c1 c2 (by rw [e3, h0]) rfl getUIMode getUIMode_received
    new2 e').2 ⟨(), rfl⟩
  exact this

example (clock : Clock) : ∃ c1 c2 new1 new2, Handles devGeneral clock setExtended ⟨DevGeneral.zero, [], 0, [], 0⟩ c1 new1 ∧
    Handles devGeneral clock getUIMode c1 c2 new2 ∧ new1.map (·.payload) = [.ptr (.gen .ACK) (0x00, 0x37, ())] ∧
    new2.map (·.payload) = [.ptr (.gen .RetUIMode) (0x00, ())] :=
  C50_fails clock _ rfl

/-! ## C51 -/

theorem recording_step {σ : Type} {D : Device σ} {clock : Clock} {cmd : Command} {c c' : Ctx (σ × List Bytes)}
    (hr : Received cmd) (h : handlePacket (recording D) clock cmd c = .ret c') :
    (certSection cmd = none → c'.certBuf = c.certBuf ∧ c'.dev.2 = c.dev.2) ∧
    ∀ cur max data, certSection cmd = some (cur, max, data) →
      c'.certBuf = (if cur = 0 then [] else c.certBuf) ++ data ∧
      c'.dev.2 = (if cur < max then c.dev.2 else c.dev.2 ++ [c'.certBuf]) := by
  by_cases hl : cmd.id.lingoID = 0x00
  · rw [handlePacket_general _ _ _ _ hl] at h
    obtain ⟨a1, a2, _⟩ := afterAudio_state cmd c
    refine ⟨fun hn => ?_, fun cur max data hs => ?_⟩
    · have := recording_none D cmd _ c' hn h
      rwa [a1, a2] at this
    · obtain ⟨major, minor, hp, hm⟩ := certSection_some hs
      rw [general_section _ _ _ _ _ _ _ _ hp hm, a1, a2] at h
      split at h
      · rename_i hc; cases h; exact ⟨rfl, by rw [if_pos hc]⟩
      · rename_i hc; cases h; exact ⟨rfl, by rw [if_neg hc]; rfl⟩
  · obtain ⟨b1, b2, _⟩ := handlePacket_other hl h
    refine ⟨fun _ => ⟨b2, by rw [b1]⟩, fun cur max data hs => ?_⟩
    obtain ⟨_, _, hp, _⟩ := certSection_some hs
    exact absurd (lingo_of_gen (received_wf hr).2 hp) hl

/-- C51. Whatever was received before: when the sections of a certificate arrive in order, with any other commands in
between, the device is handed their concatenation, once. -/
theorem C51_certificate {σ : Type} (D : Device σ) (clock : Clock) (max : UInt8) (cmds : List Command) (ds : List Bytes)
    (hr : ∀ x ∈ cmds, Received x) (hs : Sections max 0 cmds ds) (c c' : Ctx (σ × List Bytes))
    (h : handleAll (recording D) clock cmds c = .ret c') :
    c'.dev.2 = c.dev.2 ++ [ds.flatten] := by
  have key : ∀ (i : Nat) (cmds : List Command) (ds : List Bytes), Sections max i cmds ds → (∀ x ∈ cmds, Received x) →
      ∀ c c' : Ctx (σ × List Bytes), handleAll (recording D) clock cmds c = .ret c' →
        c'.dev.2 = c.dev.2 ++ [(if i = 0 then [] else c.certBuf) ++ ds.flatten] := by
    intro i cmds ds hs
    induction hs with
    | last cmd data cur i hc hi hm =>
      intro hr c c' h
      obtain ⟨d, new, hd, _⟩ := handles_total (recording D) clock cmd c
      rw [handleAll, hd] at h
      cases h
      obtain ⟨h1, h2⟩ := (recording_step (hr cmd (by simp)) hd).2 cur max data hc
      have hlt : ¬ cur < max := by rw [UInt8.lt_iff_toNat_lt]; omega
      rw [h2, if_neg hlt, h1]
      have : (cur = 0) ↔ i = 0 := by rw [← UInt8.toNat_inj, hi]; simp
      simp [this]
    | next cmd data cur i cmds ds hc hi hm _ ih =>
      intro hr c c' h
      obtain ⟨d, new, hd, _⟩ := handles_total (recording D) clock cmd c
      rw [handleAll, hd] at h
      have := ih (fun x hx => hr x (by simp [hx])) d c' h
      obtain ⟨h1, h2⟩ := (recording_step (hr cmd (by simp)) hd).2 cur max data hc
      have hlt : cur < max := by rw [UInt8.lt_iff_toNat_lt]; omega
      rw [this, h2, if_pos hlt, h1]
      have : (cur = 0) ↔ i = 0 := by rw [← UInt8.toNat_inj, hi]; simp
      simp [this]
    | other cmd i cmds ds hn _ ih =>
      intro hr c c' h
      obtain ⟨d, new, hd, _⟩ := handles_total (recording D) clock cmd c
      rw [handleAll, hd] at h
      have := ih (fun x hx => hr x (by simp [hx])) d c' h
      obtain ⟨h1, h2⟩ := (recording_step (hr cmd (by simp)) hd).1 hn
      rw [this, h1, h2]
  simpa using key 0 cmds ds hs hr c c' h

/-- C51. Each section but the last is acknowledged with success, and nothing else is sent; the last one is acknowledged as
a whole. -/
theorem C51_section_acks {σ : Type} {D : Device σ} {clock : Clock} {cmd : Command} {c c' : Ctx σ} {new : List Command}
    (hr : Received cmd) (h : Handles D clock cmd c c' new) (cur max : UInt8) (data : Bytes)
    (hs : certSection cmd = some (cur, max, data)) :
    (cur < max → new.map (·.payload) = [.ptr (.gen .ACK) (0x00, 0x15, ())] ∧ c'.dev = c.dev) ∧
    (¬ cur < max → new.map (·.payload) = [.ptr (.aud .GetAccSampleRateCaps) (),
      .ptr (.gen .AckDevAuthenticationInfo) (0x00, ()),
      .ptr (.gen .GetDevAuthenticationSignatureV2) (⟨List.replicate 20 0, rfl⟩, 0, ())]) := by
  obtain ⟨major, minor, hp, hm⟩ := certSection_some hs
  obtain ⟨h1, h2⟩ := h
  have hw := (received_wf hr).2
  have hid : LingoCmdID.cmdID cmd.id = 0x15 := by rw [hw _ _ hp]; decide +kernel
  rw [handlePacket_general _ _ _ _ (lingo_of_gen hw hp), general_section _ _ _ _ _ _ _ _ hp hm] at h1
  refine ⟨fun hc => ?_, fun hc => ?_⟩
  · have ha : authComplete cmd.payload = false := by
      rw [hp]
      simp only [authComplete, decide_eq_false_iff_not]
      rintro (⟨_, h⟩ | h)
      · exact absurd hc (UInt8.not_lt.2 h)
      · exact absurd h (UInt8.not_lt.2 hm)
    rw [if_pos hc] at h1
    simp only [afterAudio, ha, Bool.false_eq_true, if_false] at h1
    cases h1
    have := out1 h2; subst this
    simp [hid]
  · have ha : authComplete cmd.payload = true := by
      rw [hp]
      simp only [authComplete, decide_eq_true_iff]
      exact .inl ⟨hm, UInt8.not_lt.1 hc⟩
    rw [if_neg hc] at h1
    simp only [afterAudio, ha, if_true] at h1
    cases h1
    rw [List.append_assoc] at h2
    rw [← List.append_cancel_left h2]
    rfl

example {σ : Type} (D : Device σ) (clock : Clock) (c : Ctx σ) : ∃ c' new,
    Handles D clock ⟨TypeId.id (.gen .RetDevAuthenticationInfo), none, .ptr (.gen .RetDevAuthenticationInfo) (2, 0, 0, 1, [0xAA, 0xBB], ())⟩ c c' new ∧
    new.map (·.payload) = [.ptr (.gen .ACK) (0x00, 0x15, ())] ∧ c'.dev = c.dev :=
  have ⟨c', new, h⟩ := handles_total D clock _ c
  ⟨c', new, h, (C51_section_acks ⟨false, [0x00, 0x15, 2, 0, 0, 1, 0xAA, 0xBB], false, none, by decide +kernel⟩ h 0 1 [0xAA, 0xBB]
    (by decide +kernel)).1 (by decide)⟩

/-- A two-section certificate with an unrelated command in between. -/
def sampleCert : List Command :=
  [⟨TypeId.id (.gen .RetDevAuthenticationInfo), none, .ptr (.gen .RetDevAuthenticationInfo) (2, 0, 0, 1, [0xAA, 0xBB], ())⟩,
   ⟨TypeId.id (.gen .GetUIMode), none, .ptr (.gen .GetUIMode) ()⟩,
   ⟨TypeId.id (.gen .RetDevAuthenticationInfo), none, .ptr (.gen .RetDevAuthenticationInfo) (2, 0, 1, 1, [0xCC], ())⟩]

example : Sections 1 0 sampleCert [[0xAA, 0xBB], [0xCC]] ∧ ∀ x ∈ sampleCert, Received x := by
  refine ⟨.next _ _ 0 _ _ _ (by decide +kernel) rfl (by decide) (.other _ _ _ _ (by decide +kernel)
    (.last _ _ 1 _ (by decide +kernel) rfl rfl)), ?_⟩
  simp only [sampleCert, List.forall_mem_cons, List.not_mem_nil, false_imp_iff, implies_true, and_true]
  exact ⟨⟨false, [0x00, 0x15, 2, 0, 0, 1, 0xAA, 0xBB], false, none, by decide +kernel⟩,
    ⟨false, [0x00, 0x35], false, none, by decide +kernel⟩,
    ⟨false, [0x00, 0x15, 2, 0, 1, 1, 0xCC], false, none, by decide +kernel⟩⟩

/-! ## C59 -/

/-- What is sent in answer to the accessory's authentication info. -/
theorem auth_info_answers {σ : Type} {D : Device σ} {clock : Clock} {cmd : Command} {c c' : Ctx σ} {new : List Command}
    (hr : Received cmd) (h : Handles D clock cmd c c' new) {major minor cur max : UInt8} {data : Bytes}
    (hp : cmd.payload = .ptr (.gen .RetDevAuthenticationInfo) (major, minor, cur, max, data, ())) :
    new.map (·.payload) =
      if 2 ≤ major.toNat ∧ cur.toNat < max.toNat then [.ptr (.gen .ACK) (0x00, 0x15, ())]
      else [.ptr (.aud .GetAccSampleRateCaps) (), .ptr (.gen .AckDevAuthenticationInfo) (0x00, ())] ++
        if 2 ≤ major.toNat then
          [.ptr (.gen .GetDevAuthenticationSignatureV2) (⟨List.replicate 20 0, rfl⟩, 0, ())] else [] := by
  by_cases hm : 2 ≤ major.toNat
  · have hs : certSection cmd = some (cur, max, data) := by
      rw [certSection, hp]; exact if_pos hm
    obtain ⟨h1, h2⟩ := C51_section_acks hr h cur max data hs
    by_cases hc : cur.toNat < max.toNat
    · rw [if_pos ⟨hm, hc⟩]; exact (h1 (UInt8.lt_iff_toNat_lt.2 hc)).1
    · rw [if_neg (fun h => hc h.2), if_pos hm]; exact h2 (fun h => hc (UInt8.lt_iff_toNat_lt.1 h))
  · rw [if_neg (fun h => hm h.1), if_neg hm]
    obtain ⟨h1, h2⟩ := h
    have hw := (received_wf hr).2
    have hlt : major < 2 := by rw [UInt8.lt_iff_toNat_lt]; simpa using hm
    have ha : authComplete cmd.payload = true := by
      rw [hp]; simp only [authComplete, decide_eq_true_iff]; exact .inr hlt
    rw [handlePacket_general _ _ _ _ (lingo_of_gen hw hp)] at h1
    simp only [handleGeneral, hp, if_neg (UInt8.not_le.2 hlt), respond_eq] at h1
    rw [afterAudio, if_pos ha] at h1
    cases h1
    have := out2 h2; subst this
    rfl

/-- Only authentication info is answered with a signature request. -/
theorem no_signature_request {σ : Type} {D : Device σ} {cmd : Command} {c c' : Ctx σ} {new : List Command}
    (h : handleGeneral D cmd c = .ret c') (ho : c'.out = c.out ++ new)
    (hn : ∀ v, cmd.payload ≠ .ptr (.gen .RetDevAuthenticationInfo) v) :
    ∀ x ∈ new, ¬ IsSignatureRequest x.payload := by
  unfold handleGeneral at h
  split at h
  all_goals try simp only [Ctx.ack, Ctx.ackSuccess, Ctx.ackPending, respond_eq, send_eq, out_ret_bind] at h
  all_goals repeat' split at h
  all_goals cases h
  all_goals try (exact absurd ‹_› (hn _))
  all_goals first
    | (have := out0 ho; subst this)
    | (have := out1 ho; subst this)
    | (have := out2 ho; subst this)
  all_goals simp [IsSignatureRequest]

/-- C59. Digital audio is started exactly when the authentication info is complete, once. -/
theorem C59_audio_start {σ : Type} {D : Device σ} {clock : Clock} {cmd : Command} {c c' : Ctx σ} {new : List Command}
    (hr : Received cmd) (h : Handles D clock cmd c c' new) :
    (AuthInfoComplete cmd → (new.map (·.payload)).count (.ptr (.aud .GetAccSampleRateCaps) ()) = 1) ∧
    (¬ AuthInfoComplete cmd → .ptr (.aud .GetAccSampleRateCaps) () ∉ new.map (·.payload)) := by
  refine ⟨?_, ?_⟩
  · rintro ⟨major, minor, cur, max, data, hp, hc⟩
    rw [auth_info_answers hr h hp, if_neg (by omega)]
    split <;> simp
  · intro hn hm
    obtain ⟨x, hx, hxp⟩ := List.mem_map.1 hm
    rcases handles_mem h hx with ⟨_, _, ha⟩ | hx
    · apply hn
      unfold authComplete at ha
      split at ha
      · rename_i major minor cur max data u hp
        refine ⟨major, minor, cur, max, data, hp, ?_⟩
        simp only [decide_eq_true_iff] at ha
        rcases ha with ⟨_, h⟩ | h
        · exact .inr (UInt8.le_iff_toNat_le.1 h)
        · exact .inl (by simpa using UInt8.lt_iff_toNat_lt.1 h)
      · cases ha
    · exact hx.notStart hxp

example {σ : Type} (D : Device σ) (clock : Clock) (c : Ctx σ) : ∃ c' new,
    Handles D clock ⟨TypeId.id (.gen .RetDevAuthenticationInfo), none, .ptr (.gen .RetDevAuthenticationInfo) (2, 0, 1, 1, [0x30], ())⟩ c c' new ∧
    (new.map (·.payload)).count (.ptr (.aud .GetAccSampleRateCaps) ()) = 1 :=
  have ⟨c', new, h⟩ := handles_total D clock _ c
  ⟨c', new, h, (C59_audio_start ⟨false, [0x00, 0x15, 2, 0, 1, 1, 0x30], false, none, by decide +kernel⟩ h).1
    ⟨2, 0, 1, 1, [0x30], rfl, by decide⟩⟩

/-- C59. The signature is requested exactly after the last section of a version-2 certificate, once. -/
theorem C59_signature_request {σ : Type} {D : Device σ} {clock : Clock} {cmd : Command} {c c' : Ctx σ} {new : List Command}
    (hr : Received cmd) (h : Handles D clock cmd c c' new) :
    (LastSection cmd → ∃ pre p, new.map (·.payload) = pre ++ [p] ∧ IsSignatureRequest p ∧
      ∀ q ∈ pre, ¬ IsSignatureRequest q) ∧
    (¬ LastSection cmd → ∀ q ∈ new.map (·.payload), ¬ IsSignatureRequest q) := by
  refine ⟨?_, ?_⟩
  · rintro ⟨major, minor, cur, max, data, hp, hm, hc⟩
    rw [auth_info_answers hr h hp, if_neg (by omega), if_pos hm]
    exact ⟨_, _, rfl, .inr ⟨_, rfl⟩, by simp [IsSignatureRequest]⟩
  · intro hn
    by_cases hp : ∃ v, cmd.payload = .ptr (.gen .RetDevAuthenticationInfo) v
    · obtain ⟨⟨major, minor, cur, max, data, u⟩, hp⟩ := hp
      rw [auth_info_answers hr h hp]
      by_cases hm : 2 ≤ major.toNat
      · have hc : cur.toNat < max.toNat := by
          apply Classical.byContradiction
          intro hc
          exact hn ⟨major, minor, cur, max, data, hp, hm, by omega⟩
        rw [if_pos ⟨hm, hc⟩]
        simp [IsSignatureRequest]
      · rw [if_neg (fun h => hm h.1), if_neg hm]
        simp [IsSignatureRequest]
    · have hp : ∀ v, cmd.payload ≠ .ptr (.gen .RetDevAuthenticationInfo) v := fun v hv => hp ⟨v, hv⟩
      intro q hq
      obtain ⟨x, hx, rfl⟩ := List.mem_map.1 hq
      by_cases hl : cmd.id.lingoID = 0x00
      · obtain ⟨h1, h2⟩ := h
        rw [handlePacket_general _ _ _ _ hl] at h1
        have ha : authComplete cmd.payload = false := by
          unfold authComplete; split
          · exact absurd ‹_› (hp _)
          · rfl
        rw [afterAudio, ha] at h1
        exact no_signature_request h1 h2 hp x hx
      · rcases handles_mem h hx with ⟨_, h0, _⟩ | hx
        · exact absurd h0 hl
        · obtain ⟨t, v, h1, _, h3⟩ := hx.typed
          rw [h1]
          rintro (⟨w, hw⟩ | ⟨w, hw⟩) <;> (injection hw with hw; subst hw; exact hl h3.symm)

example {σ : Type} (D : Device σ) (clock : Clock) (c : Ctx σ) : ∃ c' new,
    Handles D clock ⟨TypeId.id (.gen .RetDevAuthenticationInfo), none, .ptr (.gen .RetDevAuthenticationInfo) (2, 0, 1, 1, [0x30], ())⟩ c c' new ∧
    ∃ pre p, new.map (·.payload) = pre ++ [p] ∧ IsSignatureRequest p ∧ ∀ q ∈ pre, ¬ IsSignatureRequest q :=
  have ⟨c', new, h⟩ := handles_total D clock _ c
  ⟨c', new, h, (C59_signature_request ⟨false, [0x00, 0x15, 2, 0, 1, 1, 0x30], false, none, by decide +kernel⟩ h).1
    ⟨2, 0, 1, 1, [0x30], rfl, by decide, by decide⟩⟩

/-- Authentication info of version 2 with the last section of two. -/
def lastSection : Command :=
  ⟨TypeId.id (.gen .RetDevAuthenticationInfo), none, .ptr (.gen .RetDevAuthenticationInfo) (2, 0, 1, 1, [0x30], ())⟩

example : LastSection lastSection ∧ AuthInfoComplete lastSection :=
  ⟨⟨2, 0, 1, 1, [0x30], rfl, by decide, by decide⟩, ⟨2, 0, 1, 1, [0x30], rfl, by decide⟩⟩

/-! ## C61 -/

/-- C61. A command with an unregistered id is answered with exactly one ACK, status 0x05 (unknown id), naming it, if it is
of the General lingo, and not at all otherwise; the device is not touched. -/
theorem C61_unknown_command (mode : Bool) (l : UInt8) (k : UInt16) (r : Bytes) (hf : l = 0x04 ∨ k.toNat < 256)
    (hu : ∀ t, registry.lookupID t ≠ some (idOf l k)) :
    ∃ mode' cmd err, unmarshalCmd mode (idBytes l k ++ r) = .ret (mode', cmd, some err) ∧
      ∀ {σ : Type} (D : Device σ) (clock : Clock) (c c' : Ctx σ) (new : List Command), Handles D clock cmd c c' new →
        c'.dev = c.dev ∧
        new = if l = 0x00 then [⟨TypeId.id (.gen .ACK), none, .ptr (.gen .ACK) (0x05, UInt8.ofNat k.toNat, ())⟩] else [] := by
  have hlook : ∀ n d, registry.lookup TypeId.size (idOf l k) n d = none := by
    intro n d
    cases hq : registry.lookup TypeId.size (idOf l k) n d with
    | none => rfl
    | some x =>
      have := lookup_found (t := x.1) (b := x.2) hq
      exact absurd (by rw [lookupID_eq, this]) (hu x.1)
  refine ⟨handleCmdID mode (idOf l k), ⟨idOf l k, none, .unknown r⟩, Err.unknownCmd, ?_, ?_⟩
  · rw [unmarshalCmd, unmarshalLingoCmdID_idBytes l k hf]
    simp only [hlook]
  · intro σ D clock c c' new ⟨h1, h2⟩
    have hl : LingoCmdID.lingoID (idOf l k) = l := by simp
    by_cases h0 : l = 0x00
    · rw [if_pos h0]
      rw [handlePacket_general _ _ _ _ (by rw [hl, h0])] at h1
      have hk : LingoCmdID.cmdID (idOf l k) = k := by simp
      simp only [afterAudio, authComplete, Bool.false_eq_true, if_false, handleGeneral, Ctx.ack, respond_eq, hk] at h1
      cases h1
      have := out1 h2; subst this
      refine ⟨rfl, ?_⟩
      have : k.toUInt8 = UInt8.ofNat k.toNat := by apply UInt8.toNat_inj.1; simp
      rw [this]
    · rw [if_neg h0]
      simp only [handlePacket, hl] at h1
      rw [if_neg (show ¬ l = lingoGeneralID from h0)] at h1
      simp only [handleDispRemote, handleExtRemote, handleAudio, ite_self] at h1
      cases h1
      exact ⟨rfl, out0 h2⟩

example : ∃ mode' cmd err, unmarshalCmd false [0x00, 0xF0, 0x01] = .ret (mode', cmd, some err) ∧
    ∀ {σ : Type} (D : Device σ) (clock : Clock) (c c' : Ctx σ) (new : List Command), Handles D clock cmd c c' new →
      c'.dev = c.dev ∧ new = [⟨TypeId.id (.gen .ACK), none, .ptr (.gen .ACK) (0x05, 0xF0, ())⟩] :=
  C61_unknown_command false 0x00 0xF0 [0x01] (.inr (by decide)) (by
    intro t
    rw [lookupID_eq]
    have : ∀ t ∈ TypeId.all, (some t.id : Option UInt32) ≠ some (idOf 0x00 0xF0) := by decide +kernel
    exact this t t.mem_all)

example : ∀ t, registry.lookupID t ≠ some (idOf 0x00 0xF0) := by
  intro t
  rw [lookupID_eq]
  have : ∀ t ∈ TypeId.all, (some t.id : Option UInt32) ≠ some (idOf 0x00 0xF0) := by decide +kernel
  exact this t t.mem_all

end Props
