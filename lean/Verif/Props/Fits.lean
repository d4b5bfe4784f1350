import Verif.Spec.Fits
import Verif.Props.Session

/-! # Property C80: the answers of the emulated iPod fit into packets -/

namespace Props
open Go Spec Ipod Ipod.Hid

/-- The body of a response, if it can be encoded, is short. -/
def Short (x : Command) : Prop := ∀ b, encodePayload x.payload = .ok b → b.length ≤ 40

/-- Short, or the acknowledgement of the tokens of the request. -/
def ShortOrAcks (req x : Command) : Prop :=
  Short x ∨ ∃ ts u, req.payload = .ptr (.gen .SetFIDTokenValues) (ts, u) ∧
    x.payload = .ptr (.gen .RetFIDTokenValueACKs) (ackFIDTokenValues ts, ())

theorem soa_fixed {req : Command} {id : UInt32} {trx : Option UInt16} {t : TypeId} {v : t.Val}
    (hs : (t.size.map fun n => decide (n ≤ 40)) = some true) : ShortOrAcks req ⟨id, trx, .ptr t v⟩ := by
  obtain ⟨n, hn, hle⟩ := Option.map_eq_some_iff.1 hs
  refine .inl fun b hb => ?_
  have hb : encodePayload (.ptr t v) = .ok b := hb
  rw [encodePayload_fixed hn] at hb
  cases hb
  rw [encStruct_length hn]
  exact of_decide_eq_true hle

theorem soa_own {req : Command} {id : UInt32} {trx : Option UInt16} {t : TypeId} {v : t.Val} {b : Bytes}
    (he : encodePayload (.ptr t v) = .ok b) (hb : b.length ≤ 40) : ShortOrAcks req ⟨id, trx, .ptr t v⟩ :=
  .inl fun b' h => by
    have h : encodePayload (.ptr t v) = .ok b' := h
    rw [he] at h; cases h; exact hb

theorem soa_error {req : Command} {id : UInt32} {trx : Option UInt16} {t : TypeId} {v : t.Val} {e : Err}
    (he : encodePayload (.ptr t v) = .error e) : ShortOrAcks req ⟨id, trx, .ptr t v⟩ :=
  .inl fun b' h => by
    have h : encodePayload (.ptr t v) = .ok b' := h
    rw [he] at h; cases h

theorem general_short {cmd : Command} {c c' : Ctx DevGeneral} {new : List Command}
    (h : handleGeneral devGeneral cmd c = .ret c') (ho : c'.out = c.out ++ new) : ∀ x ∈ new, ShortOrAcks cmd x := by
  unfold handleGeneral at h
  split at h
  all_goals rename_i hq
  all_goals try simp only [Ctx.ack, Ctx.ackSuccess, Ctx.ackPending, respond_eq, send_eq, out_ret_bind] at h
  all_goals repeat' split at h
  all_goals cases h
  all_goals first
    | (have := out0 ho; subst this)
    | (have := out1 ho; subst this)
    | (have := out2 ho; subst this)
  all_goals simp only [List.forall_mem_cons, List.not_mem_nil, false_imp_iff, implies_true, and_true]
  all_goals first
    | exact soa_fixed rfl
    | exact ⟨soa_fixed rfl, soa_fixed rfl⟩
    | exact .inr ⟨_, _, hq, rfl⟩
    | exact soa_error rfl
    | exact soa_own rfl (by decide +kernel)
    | exact soa_own rfl (show (stringToBytes (str "ipod-gadget")).length ≤ 40 by decide +kernel)
    | exact soa_own rfl (show (stringToBytes (str "abcd1234")).length ≤ 40 by decide +kernel)

theorem dispState_short (ty : UInt8) (i : DispState) : (marshalDispState ty i).length ≤ 40 := by
  cases i <;> simp [marshalDispState, DispState.encode, writeIgnoring, binWrite, encStruct, FTy.enc, structSize, FTy.size, beEnc_length]

theorem dispTrack_short (ty : UInt8) (i : DispTrack) : (marshalDispTrack ty i).length ≤ 40 := by
  cases i <;> simp [marshalDispTrack, DispTrack.encode, writeIgnoring, binWrite, encStruct, FTy.enc, structSize, FTy.size, beEnc_length]

theorem extInfo_short (ty : UInt8) : ∃ b, encodePayload (.ptr (.ext .ReturnIndexedPlayingTrackInfo) (ty, extTrackInfo ty, ())) = .ok b ∧
    b.length ≤ 40 := by
  unfold extTrackInfo
  split
  · exact ⟨_, rfl, by simp [encStruct, FTy.enc, beEnc_length]⟩
  split
  · exact ⟨_, rfl, by simp [encStruct, FTy.enc, beEnc_length]⟩
  split <;> exact ⟨_, rfl, by simp [encStruct]⟩

theorem disp_short {σ : Type} {clock : Clock} {cmd : Command} {c c' : Ctx σ} {new : List Command}
    (h : handleDispRemote clock cmd c = .ret c') (ho : c'.out = c.out ++ new) : ∀ x ∈ new, ShortOrAcks cmd x := by
  unfold handleDispRemote at h
  split at h
  all_goals rename_i hq
  all_goals try simp only [Ctx.dispAck, respond_eq] at h
  all_goals repeat' split at h
  all_goals cases h
  all_goals first
    | (have := out0 ho; subst this)
    | (have := out1 ho; subst this)
    | (have := out2 ho; subst this)
  all_goals simp only [List.forall_mem_cons, List.not_mem_nil, false_imp_iff, implies_true, and_true]
  all_goals first
    | exact soa_fixed rfl
    | exact soa_error rfl
    | exact soa_own rfl (dispState_short _ _)
    | exact soa_own rfl (dispTrack_short _ _)

theorem ext_short {σ : Type} {cmd : Command} {c c' : Ctx σ} {new : List Command}
    (h : handleExtRemote cmd c = .ret c') (ho : c'.out = c.out ++ new) : ∀ x ∈ new, ShortOrAcks cmd x := by
  unfold handleExtRemote at h
  split at h
  all_goals rename_i hq
  all_goals try simp only [Ctx.extAck, Ctx.extFail, respond_eq] at h
  all_goals repeat' split at h
  all_goals cases h
  all_goals first
    | (have := out0 ho; subst this)
    | (have := out1 ho; subst this)
    | (have := out2 ho; subst this)
  all_goals simp only [List.forall_mem_cons, List.not_mem_nil, false_imp_iff, implies_true, and_true]
  all_goals first
    | exact soa_fixed rfl
    | exact soa_error rfl
    | exact soa_own rfl (by decide +kernel)
    | (obtain ⟨b, hb, hl⟩ := extInfo_short _; exact soa_own hb hl)

theorem audio_short {σ : Type} {cmd : Command} {c c' : Ctx σ} {new : List Command}
    (h : handleAudio cmd c = .ret c') (ho : c'.out = c.out ++ new) : ∀ x ∈ new, ShortOrAcks cmd x := by
  unfold handleAudio at h
  split at h
  all_goals rename_i hq
  all_goals try simp only [respond_eq] at h
  all_goals repeat' split at h
  all_goals cases h
  all_goals first
    | (have := out0 ho; subst this)
    | (have := out1 ho; subst this)
    | (have := out2 ho; subst this)
  all_goals simp only [List.forall_mem_cons, List.not_mem_nil, false_imp_iff, implies_true, and_true]
  exact soa_fixed rfl

theorem replies_short {clock : Clock} {cmd : Command} {c c' : Ctx DevGeneral} {new : List Command}
    (h : Handles devGeneral clock cmd c c' new) : ∀ x ∈ new, ShortOrAcks cmd x := by
  obtain ⟨h1, h2⟩ := h
  rcases handlePacket_of_lingo h1 with ⟨e, h1⟩ | ⟨e, h1⟩ | ⟨e, h1⟩ | ⟨e, h1⟩ | ⟨e, rfl⟩
  · by_cases ha : authComplete cmd.payload = true
    · obtain ⟨c2, new2, e1, e2, _⟩ := handlePacket_emits devGeneral clock cmd c
      rw [handlePacket_general _ _ _ _ e] at e1
      rw [h1] at e1; cases e1
      rw [if_pos ⟨e, ha⟩] at e2
      have : new = [audioStartCmd c.counter] ++ new2 := new_unique h2 e2
      subst this
      rw [afterAudio, if_pos ha] at h1
      intro x hx
      rcases List.mem_append.1 hx with hx | hx
      · rw [List.mem_singleton.1 hx]; exact soa_fixed rfl
      · exact general_short h1 (by rw [h2]; simp) x hx
    · rw [afterAudio, if_neg ha] at h1
      exact general_short h1 h2
  · exact disp_short h1 h2
  · exact ext_short h1 h2
  · exact audio_short h1 h2
  · rw [out0 h2]; simp

theorem acks_length (ts : List FIDTokenValue) {b : Bytes} (h : marshalAcks (ackFIDTokenValues ts) = .ok b) :
    b.length = 1 + (ts.map ackWidth).sum := by
  suffices ∀ b, marshalList marshalAck (ackFIDTokenValues ts) = .ok b → b.length = (ts.map ackWidth).sum by
    rw [marshalAcks] at h
    cases hm : marshalList marshalAck (ackFIDTokenValues ts) with
    | error e => rw [hm] at h; cases h
    | ok b' =>
      rw [hm] at h
      cases h
      rw [List.length_append, this _ hm]; rfl
  clear h b
  induction ts with
  | nil => intro b h; cases h; rfl
  | cons t ts ih =>
    intro b h
    simp only [ackFIDTokenValues, List.map_cons, marshalList] at h
    cases ha : marshalAck (ackFIDTokenValue t) with
    | error e => rw [ha] at h; cases h
    | ok a =>
      rw [ha] at h
      cases hm : marshalList marshalAck (ackFIDTokenValues ts) with
      | error e => rw [ackFIDTokenValues] at hm; rw [hm] at h; cases h
      | ok b' =>
        have e := ih _ hm
        rw [ackFIDTokenValues] at hm
        rw [hm] at h
        cases h
        have : a.length + 1 = ackWidth t := by
          obtain ⟨id, tok⟩ := t
          cases tok <;> cases ha <;> rfl
        simp only [List.length_append, List.length_cons, List.length_nil, List.map_cons, List.sum_cons, e]
        omega

/-- C80, sizes. The packet of a response of the emulated iPod has at most 45 bytes, unless it acknowledges the tokens of the
accessory; then its length is `ackPacketLength`, at most 1280. -/
theorem C80_sizes {clock : Clock} {cmd : Command} {c c' : Ctx DevGeneral} {new : List Command}
    (hr : Received cmd) (h : Handles devGeneral clock cmd c c' new) (x : Command) (hx : x ∈ new) (m : Bool) (p : Bytes)
    (hp : (marshalCmd m x).2 = .ok p) :
    (1 ≤ p.length ∧ p.length ≤ 45) ∨
      ∃ ts u, cmd.payload = .ptr (.gen .SetFIDTokenValues) (ts, u) ∧
        p.length = ackPacketLength (if m then cmd.trx else none) ts ∧ 1 ≤ p.length ∧ p.length ≤ 1280 := by
  rw [marshalCmd_eq] at hp
  simp only at hp
  cases he : encodePayload x.payload with
  | error e => rw [he] at hp; cases hp
  | ok body =>
    rw [he] at hp
    simp only [Except.ok.injEq] at hp
    have hid : ∀ l k, 1 ≤ (idBytes l k).length ∧ (idBytes l k).length ≤ 3 := by
      intro l k; unfold idBytes; split <;> simp
    have ht := trxBytes_length (sentTrx (handleCmdID m x.id) x.trx)
    have hi := hid (LingoCmdID.lingoID x.id) (LingoCmdID.cmdID x.id)
    subst hp
    rcases replies_short h x hx with hs | ⟨ts, u, h1, h2⟩
    · refine .inl ?_
      have := hs _ he
      simp only [List.length_append, ht]
      split <;> omega
    · refine .inr ⟨ts, u, h1, ?_⟩
      have hxid : x.id = (TypeId.gen .RetFIDTokenValueACKs).id := by
        rcases handles_mem h hx with ⟨rfl, _⟩ | hx
        · cases h2
        · obtain ⟨t, v, e1, e2, _⟩ := hx.typed
          rw [h2] at e1
          cases e1
          exact e2
      have htrx : x.trx = cmd.trx := by
        refine C46_response_transaction h x hx ?_
        rintro (e | ⟨_, e⟩) <;> rw [h2] at e <;> cases e
      have hmode : handleCmdID m x.id = m := by
        rw [hxid]
        exact no_switch (t := .gen .RetFIDTokenValueACKs) (by unfold Switches; decide +kernel) m
      have hb : body.length = 1 + (ts.map ackWidth).sum := by
        rw [h2] at he
        exact acks_length ts he
      have hl : (idBytes (LingoCmdID.lingoID x.id) (LingoCmdID.cmdID x.id)).length = 2 := by
        rw [hxid]; rfl
      have hc := tokens_count hr h1
      have hle : (ts.map ackWidth).sum ≤ 5 * ts.length := by
        clear hb hc h1 h2
        induction ts with
        | nil => simp
        | cons t ts ih =>
          have : ackWidth t ≤ 5 := by unfold ackWidth; split <;> omega
          simp only [List.map_cons, List.sum_cons, List.length_cons]
          omega
      rw [hmode, sentTrx, htrx] at ht
      simp only [List.length_append, hmode, sentTrx, htrx, ht, hl, hb, ackPacketLength]
      cases m <;> cases cmd.trx <;> simp <;> omega

/-- C80. Every response of the emulated iPod that can be encoded reaches the wire as one packet, except acknowledgements of
tokens of exactly 256 bytes. -/
theorem C80_frames_iff_partial {clock : Clock} {s s' : Srv DevGeneral} {d spare : Bytes} {w : List Bytes}
    (h : processFrame devGeneral clock s ⟨d, spare⟩ = .ret (s', w)) :
    ∃ ps m cmds c news, Scan spare d ps false ∧ Decoded s.mode ps m cmds ∧
      HandledEach devGeneral clock cmds { s.ctx with out := [] } c news ∧ w.length = news.flatten.length ∧
      ∀ (i : Nat) (x : Command) (f : Bytes), news.flatten[i]? = some x → w[i]? = some f →
        (FrameFor (marshalCmd m x).2 f ↔ ∀ p, (marshalCmd m x).2 = .ok p → p.length ≠ 256) ∧
        ((∃ p, (marshalCmd m x).2 = .ok p ∧ p.length = 256) → ∃ cmd ∈ cmds, ∃ ts u,
          cmd.payload = .ptr (.gen .SetFIDTokenValues) (ts, u) ∧ ackPacketLength (if m then cmd.trx else none) ts = 256) := by
  obtain ⟨ps, m, cmds, c, news, h1, h2, h3, h4, h5, h6, h7⟩ := C56_frame_per_response_partial h
  refine ⟨ps, m, cmds, c, news, h1, h2, h4, h5, fun i x f hx hf => ?_⟩
  have hmem : x ∈ news.flatten := List.mem_of_getElem? hx
  obtain ⟨cmd, hc, a, b, new, hh, hxn⟩ := handledEach_mem h4 x hmem
  have hs := C80_sizes (decoded_received h2 cmd hc) hh x hxn m
  refine ⟨?_, ?_⟩
  · rw [h6 i x f hx hf]
    refine forall_congr' fun p => forall_congr' fun hp => ⟨fun h => h.2, fun h => ⟨?_, h⟩⟩
    rcases hs p hp with h | ⟨_, _, _, _, h⟩ <;> omega
  · rintro ⟨p, hp, hl⟩
    rcases hs p hp with h | ⟨ts, u, e1, e2, _⟩
    · omega
    · exact ⟨cmd, hc, ts, u, e1, by omega⟩

/-- `RequestiPodName`. -/
example : ∃ s' w, processFrame devGeneral (fun _ => ⟨2024, 1, 2, 3, 4⟩) (Srv.init DevGeneral.zero) ⟨[0x55, 0x02, 0x00, 0x07, 0xF7], []⟩ =
    .ret (s', w) ∧ ∃ ps m cmds, Scan [] [0x55, 0x02, 0x00, 0x07, 0xF7] ps false ∧ Decoded false ps m cmds := by
  obtain ⟨s', h⟩ := nameFrame_answered
  obtain ⟨ps, m, cmds, _, _, h1, h2, _⟩ := C80_frames_iff_partial h
  exact ⟨s', _, h, ps, m, cmds, h1, h2⟩

/-- A packet whose command is a list of tokens begins with the id of SetFIDTokenValues. -/
theorem tokens_packet {m m' : Bool} {pkt : Bytes} {cmd : Command} {e : Option Err} (h : unmarshalCmd m pkt = .ret (m', cmd, e))
    {ts : List FIDTokenValue} {u : SVal []} (hp : cmd.payload = .ptr (.gen .SetFIDTokenValues) (ts, u)) : [0x00, 0x39] <+: pkt := by
  obtain ⟨h1, h2⟩ := C19_decode_result _ _ _ _ _ h
  cases e with
  | some e =>
    rcases h1 (by simp) with h | ⟨l, k, r, _, h, _⟩
    · rw [hp] at h; cases h
    · rw [h] at hp; cases hp
  | none =>
    obtain ⟨l, k, body, t, v, e1, e2, e3, e4, _⟩ := h2 rfl
    rw [hp] at e4
    cases e4
    rw [lookupID_eq] at e3
    rw [e2, Option.some.injEq] at e3
    obtain ⟨rfl, rfl⟩ := (id_eq_iff _ l k).1 e3
    rw [e1, List.append_assoc]
    exact ⟨_, rfl⟩

theorem decoded_mem {m m' : Bool} {ps : List Bytes} {cmds : List Command} (h : Decoded m ps m' cmds) :
    ∀ c ∈ cmds, ∃ p ∈ ps, ∃ m m' e, unmarshalCmd m p = .ret (m', c, e) := by
  induction h with
  | nil => simp
  | cons a _ ih =>
    intro c hc
    rcases List.mem_cons.1 hc with rfl | hc
    · exact ⟨_, .head _, _, _, _, a⟩
    · obtain ⟨p, hp, h⟩ := ih c hc
      exact ⟨p, .tail _ hp, h⟩

theorem encoded_mem {m m' : Bool} {cmds : List Command} {rs : List (Except Err Bytes)} (h : Encoded m cmds m' rs) {p : Bytes}
    (hp : .ok p ∈ rs) : ∃ m, ∃ x ∈ cmds, (marshalCmd m x).2 = .ok p := by
  induction h with
  | nil => simp at hp
  | @cons m m' m'' cmd cmds r rs a _ ih =>
    rcases List.mem_cons.1 hp with e | hp
    · subst e
      exact ⟨m, cmd, .head _, by rw [a]⟩
    · obtain ⟨m, x, hx, h⟩ := ih hp
      exact ⟨m, x, .tail _ hx, h⟩

theorem conversation_sizes {clock : Clock} {s s' : Srv DevGeneral} {batches : List (List Bytes)} {rs : List (Except Err Bytes)}
    (h : Conversation devGeneral clock s batches s' rs) (hn : ∀ b ∈ batches, ∀ q ∈ b, ¬ [0x00, 0x39] <+: q) :
    ∀ p, .ok p ∈ rs → 1 ≤ p.length ∧ p.length ≤ 45 := by
  induction h with
  | nil => simp
  | cons h1 h2 h3 _ ih =>
    intro p hp
    rcases List.mem_append.1 hp with hp | hp
    · obtain ⟨m, x, hx, he⟩ := encoded_mem h3 hp
      obtain ⟨cmd, hc, a, b, new, hh, hxn⟩ := handledEach_mem h2 x hx
      rcases C80_sizes (decoded_received h1 cmd hc) hh x hxn m p he with h | ⟨ts, u, e1, _⟩
      · exact h
      · obtain ⟨q, hq, m, m', e, hu⟩ := decoded_mem h1 cmd hc
        exact absurd (tokens_packet hu e1) (hn _ (.head _) q hq)
    · exact ih (fun b hb => hn b (.tail _ hb)) p hp

/-- C80, sessions. As long as the accessory sends no token lists, a session with the emulated iPod over HID reports is one over
packets, in both directions, without any condition on the answers. -/
theorem C80_session (clock : Clock) (grow grow' : Growth) (defs defs' : List ReportDef)
    (hg : GoodTable defs) (hg' : GoodTable defs') (hmax : ∀ d ∈ defs, d.maxPayload ≤ 1022) (hmax' : ∀ d ∈ defs', d.maxPayload ≤ 1022)
    (frames : List (List Bytes × List Report)) (h : ∀ p ∈ frames, SentAs defs p) (hn : ∀ p ∈ frames, ∀ q ∈ p.1, ¬ [0x00, 0x39] <+: q)
    (s s' : Srv DevGeneral) (w : List Bytes)
    (hs : serve devGeneral clock grow defs (frames.flatMap fun p => arriving p.2) s = .ret (s', w)) :
    ∃ rs, Conversation devGeneral clock s (frames.map (·.1)) s' rs ∧
      ∀ back : List (List Report), back.length = w.length → (∀ x ∈ w.zip back, Written defs' x.1 x.2) → ∀ buf,
        receive grow' defs' ((rs.filterMap Except.toOption).map fun _ => 2) (back.flatMap arriving) buf =
          .ret ((rs.filterMap Except.toOption).map fun p => .ok [.ok p, .error .eof]) := by
  obtain ⟨rs, hc, hr⟩ := C78_session_partial devGeneral clock grow grow' defs defs' hg hg' hmax hmax' frames h s s' w hs
  refine ⟨rs, hc, hr fun p hp => ?_⟩
  have := conversation_sizes hc (by
    intro b hb
    obtain ⟨x, hx, rfl⟩ := List.mem_map.1 hb
    exact hn x hx) p hp
  omega

/-- Three questions in two frames, no token lists among them. -/
example : ∃ frames : List (List Bytes × List Report), frames.map (·.1) = [[[0x00, 0x07], [0x00, 0x09]], [[0x00, 0x0B]]] ∧
    (∀ p ∈ frames, SentAs defaultReportDefs p) ∧ ∀ p ∈ frames, ∀ q ∈ p.1, ¬ [0x00, 0x39] <+: q := by
  obtain ⟨r1, h1, _⟩ := C29_written defaultReportDefs goodTable_default (writePackets newPacketWriter [[0x00, 0x07], [0x00, 0x09]])
    (by decide)
  obtain ⟨r2, h2, _⟩ := C29_written defaultReportDefs goodTable_default (writePackets newPacketWriter [[0x00, 0x0B]]) (by decide)
  refine ⟨[([[0x00, 0x07], [0x00, 0x09]], r1), ([[0x00, 0x0B]], r2)], rfl, ?_, ?_⟩
  · simp only [List.mem_cons, List.not_mem_nil, or_false, forall_eq_or_imp, forall_eq]
    exact ⟨⟨by simp, by simp [Sendable], h1⟩, ⟨by simp, by simp [Sendable], h2⟩⟩
  · simp only [List.mem_cons, List.not_mem_nil, or_false, forall_eq_or_imp, forall_eq]
    decide

/-- An accessory with 62 pieces of metadata about protocols and a preference. -/
def manyTokens : List FIDTokenValue := List.replicate 62 ⟨⟨0x00, 0x08⟩, .eaMetadata 1 0⟩ ++ [⟨⟨0x00, 0x03⟩, .ipodPref 1 0 0⟩]

/-- C80 fails: the iPod receives these tokens, but in the frame it writes in answer there is no packet, so the accessory is never
told. -/
theorem C80_fails : ∃ pkt w, marshalCmd false ⟨TypeId.id (.gen .SetFIDTokenValues), none, .ptr (.gen .SetFIDTokenValues) (manyTokens, ())⟩ =
      (false, .ok pkt) ∧ pkt.length ≠ 256 ∧ ackPacketLength none manyTokens = 256 ∧
    writesOn [(writePacket newPacketWriter pkt).1] = .ret [w] ∧ w ≠ [] ∧
    callReader 2 ⟨w, []⟩ = .ret [.error Err.checksum, .error .eof] :=
  ⟨[0x00, 0x39, 63] ++ (List.replicate 62 [4, 0, 8, 1, 0]).flatten ++ [5, 0, 3, 1, 0, 0],
    [0x55, 0, 0, 0x3A, 63] ++ (List.replicate 62 [3, 0, 8, 0]).flatten ++ [4, 0, 3, 0, 1, 213], by decide +kernel⟩

/-- One metadata token less, and the answer arrives. -/
example : ∃ w, writesOn [(writePacket newPacketWriter ([0x00, 0x39, 62] ++ (List.replicate 61 [4, 0, 8, 1, 0]).flatten ++ [5, 0, 3, 1, 0, 0])).1] =
      .ret [w] ∧ callReader 2 ⟨w, []⟩ =
        .ret [.ok ([0, 0x3A, 62] ++ (List.replicate 61 [3, 0, 8, 0]).flatten ++ [4, 0, 3, 0, 1]), .error .eof] :=
  ⟨[0x55, 252, 0, 0x3A, 62] ++ (List.replicate 61 [3, 0, 8, 0]).flatten ++ [4, 0, 3, 0, 1, 229], by decide +kernel⟩

end Props
