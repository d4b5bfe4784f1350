import Verif.Lemmas.Grouping

/-! # Property C92: how packets are grouped in frames -/

namespace Props
open Go Spec Ipod

/-! ## C92 -/

theorem modeAfter_append (m : Bool) (a b : List SerdeOp) : modeAfter m (a ++ b) = modeAfter (modeAfter m a) b := by
  simp only [modeAfter, List.filterMap_append, List.getLast?_append]
  cases (b.filterMap switchOf).getLast? <;> simp

theorem steady_rest {m : Bool} {qs ps : List Bytes} (hq : qs ≠ []) (h : SteadyMode m (qs ++ ps)) :
    modeAfter m (qs.map .receive) = modeAfter m ((qs ++ ps).map .receive) ∧
      SteadyMode (modeAfter m (qs.map .receive)) ps := by
  have h0 := h qs ps rfl hq
  refine ⟨h0, fun q r e hne => ?_⟩
  have h1 := h (qs ++ q) r (by rw [e, List.append_assoc]) (by simp [hq])
  rw [List.map_append, modeAfter_append] at h1
  rw [h1, List.map_append, modeAfter_append]

theorem course_out {σ : Type} {D : Device σ} {clock : Clock} {s s' : Srv σ} {ps : List Bytes} {out : List Command}
    (h : course D clock s ps = .ret (s', out)) : s'.ctx.out = [] := by
  unfold course at h
  cases hd : decodeAll s.mode ps with
  | panic => rw [hd] at h; cases h
  | ret y =>
    obtain ⟨c, news, h1, h2, h3⟩ := handleAll_ret D clock y.2 { s.ctx with out := [] }
    rw [hd] at h
    simp only [Out.bind_ret, h1, Out.ret.injEq, Prod.mk.injEq] at h
    rw [← h.1]

/-- The run in terms of the packets. -/
theorem brings_run {σ : Type} (D : Device σ) (clock : Clock) {reads : List (Except Err Slice)} {ps : List Bytes}
    (h : Brings reads ps) (s : Srv σ) (h0 : s.ctx.out = []) :
    (course D clock s ps = .panic ∧ processFrames D clock reads s = .panic) ∨
    ∃ s' out w, course D clock s ps = .ret (s', out) ∧ processFrames D clock reads s = .ret (s', w) ∧
      w.length = out.length ∧ (SteadyMode s.mode ps → w = out.map (frameIn s'.mode)) := by
  induction h generalizing s with
  | done => exact .inr ⟨⟨s.mode, { s.ctx with out := [] }⟩, [], [], rfl, by
      simp only [processFrames, Out.ret.injEq, Prod.mk.injEq, and_true]; rw [← h0], rfl, fun _ => rfl⟩
  | @failed e reads ps he _ ih =>
    have : processFrames D clock (.error e :: reads) s = processFrames D clock reads s := by
      cases e <;> first | rfl | exact absurd rfl he
    rw [this]
    exact ih s h0
  | @frame d spare qs reads ps hs _ ih =>
    simp only [processFrames, course_append, processFrame_course D clock s hs]
    cases hc : course D clock s qs with
    | panic => exact .inl ⟨rfl, rfl⟩
    | ret x =>
      obtain ⟨s1, out1⟩ := x
      simp only [Out.bind_ret]
      rcases ih s1 (course_out hc) with ⟨e1, e2⟩ | ⟨s2, out2, w, e1, e2, e3, e4⟩
      · rw [e1, e2]; exact .inl ⟨rfl, rfl⟩
      · rw [e1, e2]
        refine .inr ⟨s2, out1 ++ out2, out1.map (frameIn s1.mode) ++ w, rfl, rfl, by simp [e3], fun hst => ?_⟩
        have hm1 := course_mode hc
        have hm2 := course_mode e1
        by_cases hq : qs = []
        · subst hq
          have : out1 = [] ∧ s1.mode = s.mode := by
            cases hc; exact ⟨rfl, rfl⟩
          rw [this.1]
          simp only [List.map_nil, List.nil_append]
          exact e4 (by rw [this.2]; exact hst)
        · obtain ⟨k1, k2⟩ := steady_rest hq hst
          rw [e4 (by rw [hm1]; exact k2)]
          have : s1.mode = s2.mode := by rw [hm2, hm1, ← modeAfter_append, ← List.map_append, ← k1]
          rw [this, List.map_append]

/-- C92. However the packets are grouped in frames, the server panics or not, and if not it ends in the same state and has
written as many frames. -/
theorem C92_state {σ : Type} (D : Device σ) (clock : Clock) {reads reads' : List (Except Err Slice)} {ps : List Bytes}
    (h : Brings reads ps) (h' : Brings reads' ps) (s : Srv σ) (h0 : s.ctx.out = []) :
    (processFrames D clock reads s = .panic ∧ processFrames D clock reads' s = .panic) ∨
    ∃ s' w w', processFrames D clock reads s = .ret (s', w) ∧ processFrames D clock reads' s = .ret (s', w') ∧
      w.length = w'.length := by
  rcases brings_run D clock h s h0 with ⟨e1, e2⟩ | ⟨s1, out, w, e1, e2, e3, -⟩ <;>
    rcases brings_run D clock h' s h0 with ⟨k1, k2⟩ | ⟨s2, out', w', k1, k2, k3, -⟩ <;> rw [e1] at k1 <;> cases k1
  · exact .inl ⟨e2, k2⟩
  · exact .inr ⟨s1, w, w', e2, k2, by rw [e3, k3]⟩

/-- C92 (partial). However the packets are grouped in frames, the server does the same, if no packet but the first changes
the transaction mode. Missing: packets that do, exactly `C92_split_iff`. -/
theorem C92_same_partial {σ : Type} (D : Device σ) (clock : Clock) {reads reads' : List (Except Err Slice)} {ps : List Bytes}
    (h : Brings reads ps) (h' : Brings reads' ps) (s : Srv σ) (h0 : s.ctx.out = []) (hst : SteadyMode s.mode ps) :
    processFrames D clock reads s = processFrames D clock reads' s := by
  rcases brings_run D clock h s h0 with ⟨e1, e2⟩ | ⟨s1, out, w, e1, e2, e3, e4⟩ <;>
    rcases brings_run D clock h' s h0 with ⟨k1, k2⟩ | ⟨s2, out', w', k1, k2, k3, k4⟩ <;> rw [e1] at k1 <;> cases k1
  · rw [e2, k2]
  · rw [e2, k2, e4 hst, k4 hst]

theorem frameOf_length {p : Bytes} (hp : p ≠ []) : (frameOf (.ok p)).length = p.length + (if p.length > 256 then 5 else 3) := by
  simp only [frameOf, writePacket_ne _ _ hp, newPacketWriter, writtenHeader, largePacketMinLen]
  split <;> simp <;> omega

/-- The mode makes a difference to a command that has a transaction and can be encoded. -/
theorem frameIn_eq_iff {m m' : Bool} {x : Command} (hx : switchOfId x.id = none) :
    frameIn m x = frameIn m' x ↔ m = m' ∨ x.trx = none ∨ ∀ body, ¬ PayloadBytes x.payload body := by
  have hc : ∀ m, handleCmdID m x.id = m := fun m => by rw [switch_eq, hx]; rfl
  simp only [← encode_iff, frameIn, marshalCmd_eq, hc]
  cases he : encodePayload x.payload with
  | error e => simp
  | ok b =>
    cases ht : x.trx with
    | none => cases m <;> cases m' <;> simp [sentTrx]
    | some t =>
      have hl : ∀ m : Bool, (frameOf (.ok (idBytes (LingoCmdID.lingoID x.id) (LingoCmdID.cmdID x.id) ++
          trxBytes (sentTrx m (some t)) ++ b))).length =
          (idBytes (LingoCmdID.lingoID x.id) (LingoCmdID.cmdID x.id)).length + (if m then 2 else 0) + b.length +
          (if (idBytes (LingoCmdID.lingoID x.id) (LingoCmdID.cmdID x.id)).length + (if m then 2 else 0) + b.length > 256
            then 5 else 3) := by
        intro m
        rw [frameOf_length]
        · cases m <;> simp [sentTrx, trxBytes_length, Nat.add_assoc]
        · unfold idBytes; split <;> simp
      constructor
      · intro h
        have := congrArg List.length h
        rw [hl, hl] at this
        left
        cases m <;> cases m' <;> first | rfl | (exfalso; simp only [if_true, Bool.false_eq_true, if_false] at this; split at this <;> split at this <;> omega)
      · rintro (rfl | h | h)
        · rfl
        · cases h
        · exact absurd rfl (h b)

/-- C92, exactly: two frames instead of one are answered alike just when the mode does not change in the second, or the answers
to the first have no transaction or cannot be sent. -/
theorem C92_split_iff {σ : Type} (D : Device σ) (clock : Clock) {a sa b sb d sd : Bytes} {ps qs : List Bytes}
    (ha : Scan sa a ps false) (hb : Scan sb b qs false) (hd : Scan sd d (ps ++ qs) false) {s s' : Srv σ} {w : List Bytes}
    (h : processFrames D clock [.ok ⟨d, sd⟩] s = .ret (s', w)) {m : Bool} {cmds : List Command} (h1 : Decoded s.mode ps m cmds)
    {c : Ctx σ} {news : List (List Command)} (h2 : HandledEach D clock cmds { s.ctx with out := [] } c news) :
    processFrames D clock [.ok ⟨a, sa⟩, .ok ⟨b, sb⟩] s = .ret (s', w) ↔
      m = s'.mode ∨ ∀ x ∈ news.flatten, x.trx = none ∨ ∀ body, ¬ PayloadBytes x.payload body := by
  obtain ⟨c', news', k1, k2, k3⟩ := handleAll_ret D clock cmds { s.ctx with out := [] }
  obtain ⟨rfl, rfl⟩ := handledEach_unique h2 k2
  have hc : course D clock s ps = .ret (⟨m, { c with out := [] }⟩, news.flatten) := by
    simp only [course, decodeAll_ret.2 h1, Out.bind_ret, k1, k3]; rfl
  have hn := course_no_switch hc
  simp only [processFrames, processFrame_course D clock _ ha, processFrame_course D clock _ hb,
    processFrame_course D clock _ hd, course_append, hc, Out.bind_ret] at h ⊢
  cases hq : course D clock ⟨m, { c with out := [] }⟩ qs with
  | panic => rw [hq] at h; cases h
  | ret y =>
    obtain ⟨s2, out⟩ := y
    rw [hq] at h
    simp only [Out.bind_ret, List.append_nil, Out.ret.injEq, Prod.mk.injEq] at h ⊢
    obtain ⟨rfl, rfl⟩ := h
    simp only [true_and, List.map_append, List.append_cancel_right_eq]
    constructor
    · intro h
      by_cases hm : m = s2.mode
      · exact .inl hm
      · refine .inr fun x hx => ?_
        have := List.map_inj_left.1 h x hx
        exact ((frameIn_eq_iff (hn x hx)).1 this).resolve_left hm
    · intro h
      refine List.map_inj_left.2 fun x hx => (frameIn_eq_iff (hn x hx)).2 ?_
      rcases h with h | h
      · exact .inl h
      · exact .inr (h x hx)

/-- Packets that switch nothing, after the first. -/
theorem C92_steady {m : Bool} {ps : List Bytes} (h : ∀ p ∈ ps.drop 1, switchOf (.receive p) = none) : SteadyMode m ps := by
  rintro q r rfl hq
  obtain ⟨p, q, rfl⟩ := List.exists_cons_of_ne_nil hq
  have hr : (r.map SerdeOp.receive).filterMap switchOf = [] := by
    rw [List.filterMap_eq_nil_iff]
    simp only [List.mem_map, forall_exists_index, and_imp, forall_apply_eq_imp_iff₂]
    intro x hx
    exact h x (by simp [hx])
  rw [List.map_append, modeAfter, modeAfter, List.filterMap_append, hr, List.append_nil]

/-- C92 fails: transactions having been enabled, the answer to a request with a transaction loses it if
IdentifyDeviceLingoes follows in the same frame. Transactions being off, the iPod's request for the certificate gains one if
StartIDPS follows in the same frame. -/
theorem C92_fails :
    (writesOn [startIDPSFrame, askSize, identifyFrame] =
      .ret [[0x55, 6, 0, 2, 0, 1, 0, 56, 191], [0x55, 6, 0, 0x12, 0, 5, 255, 255, 229], [0x55, 4, 0, 2, 0, 0x13, 231]] ∧
    writesOn [startIDPSFrame, askSize ++ identifyFrame] =
      .ret [[0x55, 6, 0, 2, 0, 1, 0, 56, 191], [0x55, 4, 0, 0x12, 255, 255, 236], [0x55, 4, 0, 2, 0, 0x13, 231]]) ∧
    writesOn [[0x55, 3, 0, 0x3B, 0, 0xC2], startIDPSFrame] =
      .ret [[0x55, 3, 0, 0x3C, 0, 193], [0x55, 2, 0, 0x14, 234], [0x55, 6, 0, 2, 0, 1, 0, 56, 191]] ∧
    writesOn [[0x55, 3, 0, 0x3B, 0, 0xC2] ++ startIDPSFrame] =
      .ret [[0x55, 3, 0, 0x3C, 0, 193], [0x55, 4, 0, 0x14, 0, 1, 231], [0x55, 6, 0, 2, 0, 1, 0, 56, 191]] := by
  decide +kernel

theorem askSize_packet : IsPacket [0x00, 0x11, 0x00, 0x05] askSize := ⟨[0x04], 0xE6, .inl ⟨0x04, by decide, by decide, rfl⟩, rfl, by decide⟩

theorem askSize_scan (spare : Bytes) {d : Bytes} {ps : List Bytes} {b : Bool} (h : Scan spare d ps b) :
    Scan spare (askSize ++ d) ([0x00, 0x11, 0x00, 0x05] :: ps) b :=
  .packet (j := []) (by intro hx; cases hx) askSize_packet h

/-- Hypotheses of C92: two requests, in one frame or in two with a failing read between. -/
example : Brings [.ok ⟨askSize ++ askSize, []⟩] [[0x00, 0x11, 0x00, 0x05], [0x00, 0x11, 0x00, 0x05]] ∧
    Brings [.ok ⟨askSize, [1]⟩, .error .noProgress, .ok ⟨askSize, []⟩] [[0x00, 0x11, 0x00, 0x05], [0x00, 0x11, 0x00, 0x05]] ∧
    SteadyMode true [[0x00, 0x11, 0x00, 0x05], [0x00, 0x11, 0x00, 0x05]] :=
  have h0 : ∀ spare, Scan spare [] [] false := fun spare => .done (by intro hx; cases hx)
  ⟨.frame (qs := [_, _]) (by simpa using askSize_scan [] (askSize_scan [] (h0 []))) .done,
   .frame (qs := [_]) (by simpa using askSize_scan [1] (h0 [1])) (.failed (by decide)
     (.frame (qs := [_]) (by simpa using askSize_scan [] (h0 [])) .done)),
   C92_steady (by decide)⟩

/-! ## C55, exactly -/

/-- The transaction is on the wire: the frame is the packet of id, transaction and body. -/
def OnWire (x : Command) (t : UInt16) (f : Bytes) : Prop :=
  ∃ l k body, x.id = idOf l k ∧ PayloadBytes x.payload body ∧
    f = (writePacket newPacketWriter (idBytes l k ++ transactionBytes (some t) ++ body)).1

/-- C55, exactly: a response that has a transaction and can be encoded carries it on the wire just if the last packet of the
frame leaves transactions on. -/
theorem C55_carried_iff {σ : Type} {D : Device σ} {clock : Clock} {s s' : Srv σ} {d spare : Bytes}
    {w : List Bytes} (h : processFrame D clock s ⟨d, spare⟩ = .ret (s', w)) :
    ∃ ps m cmds c news, Scan spare d ps false ∧ Decoded s.mode ps m cmds ∧
      HandledEach D clock cmds { s.ctx with out := [] } c news ∧ w.length = news.flatten.length ∧
      ∀ (i : Nat) (x : Command) (f : Bytes) (t : UInt16), news.flatten[i]? = some x → w[i]? = some f → f ≠ [] →
        x.trx = some t → (OnWire x t f ↔ modeAfter s.mode (ps.map .receive) = true) := by
  obtain ⟨ps, m, cmds, c, news, h1, h2, h3, h4, h5⟩ := C55_batch_mode h
  refine ⟨ps, m, cmds, c, news, h1, h2, h3, h4, fun i x f t hx hf hne ht => ?_⟩
  rcases h5 i x f hx hf with ⟨l, k, body, e1, e2, e3⟩ | e
  · constructor
    · rintro ⟨l', k', body', e1', e2', e3'⟩
      obtain ⟨rfl, rfl⟩ := idOf_inj (e1.symm.trans e1')
      have hb := (encode_iff _ _).2 e2
      rw [(encode_iff _ _).2 e2'] at hb
      cases hb
      cases hm : modeAfter s.mode (ps.map .receive) with
      | true => rfl
      | false =>
        rw [hm, if_neg (by simp)] at e3
        have hl := congrArg List.length (e3.symm.trans e3')
        have hi : 1 ≤ (idBytes l k).length := by unfold idBytes; split <;> simp
        have hl1 := frameOf_length (p := idBytes l k ++ [] ++ body) (by intro h; have := congrArg List.length h; simp only [List.length_append, List.length_nil] at this; omega)
        have hl2 := frameOf_length (p := idBytes l k ++ transactionBytes (some t) ++ body)
          (by intro h; have := congrArg List.length h; simp only [List.length_append, List.length_nil] at this; omega)
        simp only [frameOf] at hl1 hl2
        rw [hl1, hl2] at hl
        simp only [List.length_append, transactionBytes, List.length_cons, List.length_nil] at hl
        split at hl <;> split at hl <;> omega
    · intro hm
      rw [if_pos hm, ht] at e3
      exact ⟨l, k, body, e1, e2, e3⟩
  · exact absurd e hne

/-- `RequestiPodName`. -/
example : ∃ s' w ps m cmds, processFrame devGeneral (fun _ => ⟨2024, 1, 2, 3, 4⟩) (Srv.init DevGeneral.zero) ⟨[0x55, 0x02, 0x00, 0x07, 0xF7], []⟩ =
    .ret (s', w) ∧ Scan [] [0x55, 0x02, 0x00, 0x07, 0xF7] ps false ∧ Decoded false ps m cmds := by
  obtain ⟨s', h⟩ := nameFrame_answered
  obtain ⟨ps, m, cmds, _, _, h1, h2, _⟩ := C55_carried_iff h
  exact ⟨s', _, ps, m, cmds, h, h1, h2⟩

/-- In the first of the two frames of `C55_fails` the answer carries transaction 5, in the second one it does not. -/
example : OnWire ⟨idOf 0 0x12, some 5, .ptr (.gen .ReturnTransportMaxPayloadSize) ((65535 : UInt16), ())⟩ 5
    [0x55, 6, 0, 0x12, 0, 5, 255, 255, 229] :=
  ⟨0, 0x12, [255, 255], rfl, (encode_iff _ _).1 rfl, by decide⟩

end Props
