import Verif.Spec.Stack
import Verif.Props.Fits
import Verif.Props.Handshake

/-! # Property C95: commands through the whole stack -/

namespace Props
open Go Spec Ipod Ipod.Hid

/-- C95, messages. Every message the library can carry survives the way from one end to the other. -/
theorem C95_survives {m : Bool} {cmd : Command} (h : Faithful m cmd) : Survives m cmd := by
  cases h with
  | @fixed t id n v trx hi hf hne =>
    rw [lookupID_eq] at hi; cases hi
    obtain ⟨p, h1, h2⟩ := fixed_command_roundtrip ((structSize_iff _ _).2 hf) v trx m m (fun h => hne h.1)
    rw [switch_eq] at h1 h2
    exact ⟨p, h1, h2⟩
  | @var t id v trx hi hv hx ht =>
    rw [lookupID_eq] at hi; cases hi
    obtain ⟨p, h1, h2⟩ := var_command_roundtrip hv hx trx m ht
    have e : onAfter m ⟨t.id, trx, .ptr t v⟩ = m := by
      rw [onAfter, ← switch_eq, handleCmdID_var (varOK_size hv)]
    refine ⟨p, by rw [e]; exact h1, ?_⟩
    rw [asSeen, e]; exact h2

/-- The type of an emitted command, and whether it survives. -/
def GoodMsg (x : Command) : Prop :=
  ∃ t v, x.payload = .ptr t v ∧ x.id = t.id ∧ ((∃ n, t.size = some n ∧ t ≠ .gen .ACKDataDropped) ∨ VarOK t v ∧ ¬ IsTrackText t v)

theorem good_fixed {trx : Option UInt16} {t : TypeId} {v : t.Val} (hs : t.size.isSome = true) (hne : t ≠ .gen .ACKDataDropped) :
    GoodMsg ⟨t.id, trx, .ptr t v⟩ := by
  obtain ⟨n, hn⟩ := Option.isSome_iff_exists.1 hs
  exact ⟨t, v, rfl, rfl, .inl ⟨n, hn, hne⟩⟩

theorem good_var {trx : Option UInt16} {t : TypeId} {v : t.Val} (hv : VarOK t v) (hx : ¬ IsTrackText t v) :
    GoodMsg ⟨t.id, trx, .ptr t v⟩ := ⟨t, v, rfl, rfl, .inr ⟨hv, hx⟩⟩

theorem state_ok {ty : UInt8} {now : Time} {info : DispState} (h : dispStateInfo ty now = some info) : DispStateOK ty info := by
  unfold dispStateInfo at h
  split at h <;> cases h <;> rename_i e <;> (simp only [DispStateOK]; exact UInt8.toNat_inj.1 e)

theorem track_ok {ty : UInt8} {info : DispTrack} (h : dispTrackInfo ty = some info) :
    DispTrackOK ty info ∧ (DispTrackFixed info ↔ ¬ (1 ≤ ty.toNat ∧ ty.toNat ≤ 7)) := by
  unfold dispTrackInfo at h
  split at h <;> cases h <;> rename_i e <;> refine ⟨?_, ?_⟩
  all_goals first
    | (simp only [DispTrackOK]; exact UInt8.toNat_inj.1 e)
    | (rw [show ty = _ from UInt8.toNat_inj.1 e]; simp [DispTrackFixed]; done)
    | (simp only [DispTrackFixed]; rw [e]; decide)

theorem track_none {ty : UInt8} (h : dispTrackInfo ty = none) : ¬ ty.toNat ≤ 7 := by
  intro h7
  unfold dispTrackInfo at h
  split at h <;> first | (cases h; done) | skip
  rename_i a0 a1 a2 a3 a4 a5 a6 a7 a8
  generalize ty.toNat = n at *
  have : n ≠ 0 := a0
  have : n ≠ 1 := a1
  have : n ≠ 2 := a2
  have : n ≠ 3 := a3
  have : n ≠ 4 := a4
  have : n ≠ 5 := a5
  have : n ≠ 6 := a6
  have : n ≠ 7 := a7
  omega

theorem ext_ok {ty : UInt8} (h : ty ∈ [(0x00 : UInt8), 0x03, 0x04]) : ExtInfoOK ty (extTrackInfo ty) := by
  simp only [List.mem_cons, List.not_mem_nil, or_false] at h
  rcases h with rfl | rfl | rfl
  · rfl
  · exact .inl rfl
  · exact .inr rfl

theorem acks_ok {ts : List FIDTokenValue} (hk : ¬ ∃ t ∈ ts, UnknownToken t) : ∀ a ∈ ackFIDTokenValues ts, AckOK a := by
  intro a ha
  obtain ⟨t, ht, rfl⟩ := List.mem_map.1 ha
  have hu : ¬ UnknownToken t := fun h => hk ⟨t, ht, h⟩
  obtain ⟨id, tok⟩ := t
  cases tok
  all_goals first
    | exact ⟨_, rfl, by simp⟩
    | exact absurd (.inl ⟨_, rfl⟩) hu
    | exact absurd (.inr rfl) hu

theorem disp_good {σ : Type} {clock : Clock} {cmd : Command} {c c' : Ctx σ} {new : List Command} (hg : ¬ Garbled cmd)
    (h : handleDispRemote clock cmd c = .ret c') (ho : c'.out = c.out ++ new) : ∀ x ∈ new, GoodMsg x := by
  unfold handleDispRemote at h
  split at h
  all_goals rename_i hq
  all_goals try simp only [Ctx.dispAck, respond_eq] at h
  all_goals repeat' split at h
  all_goals cases h
  all_goals first
    | (have := out0 ho; subst this)
    | (have := out1 ho; subst this)
    | (have := out2 ho; subst this)
  all_goals simp only [List.forall_mem_cons, List.not_mem_nil, false_imp_iff, implies_true, and_true]
  all_goals first
    | exact good_fixed rfl (by simp)
    | exact (hg (.unsendable (.eqName _ hq))).elim
    | exact (hg (.unsendable (.artworkFormats _ hq))).elim
    | exact (hg (.unsendable (.artworkTimes _ hq))).elim
    | (rename_i hi; exact good_var (.dispState _ _ (state_ok hi)) (by simp [IsTrackText]))
    | (rename_i hi _; exact good_var (.dispState _ _ (state_ok hi)) (by simp [IsTrackText]))
    | (rename_i hi
       refine good_var (.dispTrack _ _ (track_ok hi).1) ?_
       simp only [IsTrackText, Classical.not_not]
       rw [(track_ok hi).2]
       exact fun hn => hg (.text _ _ hq hn.1 hn.2))
    
theorem ext_good {σ : Type} {cmd : Command} {c c' : Ctx σ} {new : List Command} (hg : ¬ Garbled cmd)
    (h : handleExtRemote cmd c = .ret c') (ho : c'.out = c.out ++ new) : ∀ x ∈ new, GoodMsg x := by
  unfold handleExtRemote at h
  split at h
  all_goals rename_i hq
  all_goals try simp only [Ctx.extAck, Ctx.extFail, respond_eq] at h
  all_goals repeat' split at h
  all_goals cases h
  all_goals first
    | (have := out0 ho; subst this)
    | (have := out1 ho; subst this)
    | (have := out2 ho; subst this)
  all_goals simp only [List.forall_mem_cons, List.not_mem_nil, false_imp_iff, implies_true, and_true]
  all_goals first
    | exact good_fixed rfl (by simp)
    | exact (hg (.unsendable (.chapterName _ hq))).elim
    | exact good_var (.artworks _) (by simp [IsTrackText])
    | exact good_var (.title _) (by simp [IsTrackText])
    | exact good_var (.artist _) (by simp [IsTrackText])
    | exact good_var (.album _) (by simp [IsTrackText])
    | exact good_var (.extInfo _ _ (ext_ok (Classical.not_not.1 fun hn => hg (.info _ _ hq hn)))) (by simp [IsTrackText])

theorem audio_good {σ : Type} {cmd : Command} {c c' : Ctx σ} {new : List Command}
    (h : handleAudio cmd c = .ret c') (ho : c'.out = c.out ++ new) : ∀ x ∈ new, GoodMsg x := by
  unfold handleAudio at h
  split at h
  all_goals rename_i hq
  all_goals try simp only [respond_eq] at h
  all_goals repeat' split at h
  all_goals cases h
  all_goals first
    | (have := out0 ho; subst this)
    | (have := out1 ho; subst this)
    | (have := out2 ho; subst this)
  all_goals simp only [List.forall_mem_cons, List.not_mem_nil, false_imp_iff, implies_true, and_true]
  exact good_fixed rfl (by simp)

theorem general_good {σ : Type} {D : Device σ} {cmd : Command} {c c' : Ctx σ} {new : List Command} (hr : Received cmd)
    (hg : ¬ Garbled cmd) (h : handleGeneral D cmd c = .ret c') (ho : c'.out = c.out ++ new) : ∀ x ∈ new, GoodMsg x := by
  unfold handleGeneral at h
  split at h
  all_goals rename_i hq
  all_goals try simp only [Ctx.ack, Ctx.ackSuccess, Ctx.ackPending, respond_eq, send_eq, out_ret_bind] at h
  all_goals repeat' split at h
  all_goals cases h
  all_goals first
    | (have := out0 ho; subst this)
    | (have := out1 ho; subst this)
    | (have := out2 ho; subst this)
  all_goals simp only [List.forall_mem_cons, List.not_mem_nil, false_imp_iff, implies_true, and_true]
  all_goals first
    | exact good_fixed rfl (by simp)
    | exact ⟨good_fixed rfl (by simp), good_fixed rfl (by simp)⟩
    | exact (hg (.unsendable (.authInfo _ hq))).elim
    | exact (hg (.unsendable (.focusApp _ hq))).elim
    | exact good_var (.name _) (by simp [IsTrackText])
    | exact good_var (.serial _) (by simp [IsTrackText])
    | exact good_var (.model _ _) (by simp [IsTrackText])
    | exact good_var (.acks _ (by have := tokens_count hr hq; simpa [ackFIDTokenValues] using this)
        (acks_ok fun hk => hg (.unsendable (.tokens _ _ hq hk)))) (by simp [IsTrackText])

theorem replies_good {σ : Type} {D : Device σ} {clock : Clock} {cmd : Command} {c c' : Ctx σ} {new : List Command} (hr : Received cmd)
    (hg : ¬ Garbled cmd) (h : Handles D clock cmd c c' new) : ∀ x ∈ new, GoodMsg x := by
  obtain ⟨h1, h2⟩ := h
  rcases handlePacket_of_lingo h1 with ⟨e, h1⟩ | ⟨e, h1⟩ | ⟨e, h1⟩ | ⟨e, h1⟩ | ⟨e, rfl⟩
  · by_cases ha : authComplete cmd.payload = true
    · obtain ⟨c2, new2, e1, e2, _⟩ := handlePacket_emits D clock cmd c
      rw [handlePacket_general _ _ _ _ e] at e1
      rw [h1] at e1; cases e1
      rw [if_pos ⟨e, ha⟩] at e2
      have : new = [audioStartCmd c.counter] ++ new2 := new_unique h2 e2
      subst this
      rw [afterAudio, if_pos ha] at h1
      intro x hx
      rcases List.mem_append.1 hx with hx | hx
      · rw [List.mem_singleton.1 hx]; exact good_fixed rfl (by simp)
      · exact general_good hr hg h1 (by rw [h2]; simp) x hx
    · rw [afterAudio, if_neg ha] at h1
      exact general_good hr hg h1 h2
  · exact disp_good hg h1 h2
  · exact ext_good hg h1 h2
  · exact audio_good h1 h2
  · rw [out0 h2]; simp

/-- The transaction of an answer: that of the request, or one of the device's own. -/
theorem reply_trx {σ : Type} {D : Device σ} {clock : Clock} {cmd : Command} {c c' : Ctx σ} {new : List Command}
    (h : Handles D clock cmd c c' new) (ht : cmd.trx.isSome = true) : ∀ x ∈ new, x.trx.isSome = true := by
  intro x hx
  rcases handles_mem h hx with ⟨rfl, _⟩ | hx
  · rfl
  · by_cases ho : DeviceOriginated cmd x
    · rw [hx.fresh ho]; rfl
    · rw [hx.trx ho]; exact ht

theorem goodMsg_faithful {m : Bool} {x : Command} (h : GoodMsg x) (ht : m = true → x.trx.isSome = true) : Faithful m x := by
  obtain ⟨id, trx, pl⟩ := x
  obtain ⟨t, v, rfl, rfl, h⟩ := h
  rcases h with ⟨n, hn, hne⟩ | ⟨h1, h2⟩
  · exact .fixed (lookupID_eq t) ((structSize_iff _ _).1 hn) hne
  · exact .var (lookupID_eq t) h1 h2 ht

/-- The packet of a command of variable size. -/
theorem survives_packet {t : TypeId} (hs : t.size = none) {m : Bool} {trx : Option UInt16} (ht : m = true → trx.isSome = true) {v : t.Val}
    (h : Survives m ⟨t.id, trx, .ptr t v⟩) :
    ∃ sent p, Option.isSome sent = m ∧ marshalCmd m ⟨t.id, sent, .ptr t v⟩ = (m, .ok p) ∧ unmarshalCmd m p = .ret (m, ⟨t.id, sent, .ptr t v⟩, none) := by
  obtain ⟨p, h1, h2⟩ := h
  have e : handleCmdID m t.id = m := handleCmdID_var hs m
  have e2 : onAfter m ⟨t.id, trx, .ptr t v⟩ = m := by rw [onAfter, ← switch_eq]; exact e
  rw [e2] at h1 h2
  rw [asSeen, e2] at h2
  refine ⟨if m then trx else none, p, ?_, ?_, h2⟩
  · cases m with
    | false => rfl
    | true => exact ht rfl
  · rw [← h1, marshalCmd_eq, marshalCmd_eq]
    simp only [e]
    cases m <;> simp [sentTrx]

/-- A message of variable size which survives is decoded from its encoding. -/
theorem survives_codec {t : TypeId} (hs : t.size = none) {m : Bool} {trx : Option UInt16} (ht : m = true → trx.isSome = true) {v v' : t.Val}
    {b : Bytes} (h : Survives m ⟨t.id, trx, .ptr t v⟩) (he : encodePayload (.ptr t v) = .ok b)
    (hd : decodePayload t b = .ret (.ok v')) : v' = v := by
  obtain ⟨sent, p, h0, h1, h2⟩ := survives_packet hs ht h
  have h3 := decode_var hs h0 hd
  rw [marshalCmd_eq] at h1
  simp only [he, lingoID_id, cmdID_id, handleCmdID_var hs] at h1
  rw [trxBytes_eq] at h1
  simp only [Prod.mk.injEq, true_and, Except.ok.injEq] at h1
  have : p = packetOf t.lingo t.cmd sent b := by
    rw [← h1, packetOf]
    cases m with
    | false => cases sent with
      | none => rfl
      | some x => cases h0
    | true => rfl
  rw [this, h3] at h2
  simpa using h2

/-- C95, answers. With transactions off, or asked with a transaction, all answers to a request survive the way back, exactly
unless the request is one of the garbled ones. -/
theorem C95_answers_iff {σ : Type} {D : Device σ} {clock : Clock} {cmd : Command} {c c' : Ctx σ} {new : List Command} {m : Bool}
    (hr : Received cmd) (ht : m = true → cmd.trx.isSome = true) (h : Handles D clock cmd c c' new) :
    (∀ x ∈ new, Survives m x) ↔ ¬ Garbled cmd := by
  constructor
  · intro hs hg
    cases hg with
    | unsendable hu =>
      obtain ⟨x, e, rfl, he⟩ := unsendable_lost hr h hu
      obtain ⟨p, h1, _⟩ := hs x (.head _)
      have := he m
      rw [h1] at this
      cases this
    | text ty v hp h1 h7 =>
      have h2 := handles_disp hr h hp
      simp only [hp, handleDispRemote] at h2
      cases hi : dispTrackInfo ty with
      | none =>
        exact track_none hi h7
      | some info =>
        simp only [hi, respond_eq] at h2
        cases h2
        have := out1 h.2
        subst this
        obtain ⟨sent, p, h0, h3, h4⟩ := survives_packet rfl ht (hs _ (.head _))
        obtain ⟨hok, hfix⟩ := track_ok hi
        obtain ⟨p', id, h5, h6, h8⟩ := C15_track_text_not_roundtrip m ty info hok (by rw [hfix]; exact fun hn => hn ⟨h1, h7⟩) _ h0
        rw [lookupID_eq, Option.some.injEq] at h6
        subst h6
        rw [h5] at h3
        simp only [Prod.mk.injEq, true_and, Except.ok.injEq] at h3
        subst h3
        rw [h8] at h4
        cases h4
    | info ty v hp hn =>
      have h2 := handles_ext hr h hp
      simp only [hp, handleExtRemote, respond_eq] at h2
      cases h2
      have := out1 h.2
      subst this
      simp only [List.mem_cons, List.not_mem_nil, or_false, not_or] at hn
      have hd : ∀ b, decodePayload (.ext .ReturnIndexedPlayingTrackInfo) (ty :: b) = .ret (.ok (ty, .emptyPtr, ())) := by
        intro b
        have : unmarshalExtInfo (ty :: b) = .ok (ty, .emptyPtr, ()) := by
          have e : binRead [.u8] (ty :: b) = (.ok (ty, ()), b) := by simp [binRead_u8_cons]
          unfold unmarshalExtInfo
          rw [e]
          simp only
          rw [if_neg hn.1, if_neg (fun e => e.elim hn.2.1 hn.2.2)]
          rfl
        simp [decodePayload, TypeId.unmarshalBinary, this]
      have hx : extTrackInfo ty = .emptyVal ∨ extTrackInfo ty = .bytes [0] := by
        unfold extTrackInfo
        rw [if_neg hn.1, if_neg (fun e => e.elim hn.2.1 hn.2.2)]
        by_cases h7 : ty = 7
        · rw [if_pos h7]; exact .inl rfl
        · rw [if_neg h7]; exact .inr rfl
      have hsv := hs _ (.head _)
      rcases hx with hx | hx <;> rw [hx] at hsv
      · have := survives_codec (t := .ext .ReturnIndexedPlayingTrackInfo) rfl ht hsv (b := [ty]) rfl (hd _)
        injection this with _ this
        injection this with this
        cases this
      · have := survives_codec (t := .ext .ReturnIndexedPlayingTrackInfo) rfl ht hsv (b := [ty, 0]) rfl (hd _)
        injection this with _ this
        injection this with this
        cases this
  · intro hg x hx
    refine C95_survives (goodMsg_faithful (replies_good hr hg h x hx) fun hm => reply_trx h (ht hm) x hx)

theorem garbled_seen {m : Bool} {cmd : Command} : Garbled (asSeen m cmd) ↔ Garbled cmd := by
  constructor
  · rintro (h | ⟨ty, v, h1, h2, h3⟩ | ⟨ty, v, h1, h2⟩)
    · refine .unsendable ?_
      cases h with
      | authInfo v h => exact .authInfo v h
      | focusApp v h => exact .focusApp v h
      | chapterName v h => exact .chapterName v h
      | eqName v h => exact .eqName v h
      | artworkFormats v h => exact .artworkFormats v h
      | artworkTimes v h => exact .artworkTimes v h
      | tokens ts u h hk => exact .tokens ts u h hk
    · exact .text ty v h1 h2 h3
    · exact .info ty v h1 h2
  · rintro (h | ⟨ty, v, h1, h2, h3⟩ | ⟨ty, v, h1, h2⟩)
    · refine .unsendable ?_
      cases h with
      | authInfo v h => exact .authInfo v h
      | focusApp v h => exact .focusApp v h
      | chapterName v h => exact .chapterName v h
      | eqName v h => exact .eqName v h
      | artworkFormats v h => exact .artworkFormats v h
      | artworkTimes v h => exact .artworkTimes v h
      | tokens ts u h hk => exact .tokens ts u h hk
    · exact .text ty v h1 h2 h3
    · exact .info ty v h1 h2

/-- The answers of one request, encoded at one end and decoded at the other. -/
theorem answers_through {m : Bool} (new : List Command) (h : ∀ x ∈ new, switchOfId x.id = none ∧ Survives m x) :
    ∃ ps, Encoded m new m (ps.map .ok) ∧ Reads m ps m (new.map (asSeen m)) ∧ ∀ p ∈ ps, ∃ x ∈ new, (marshalCmd m x).2 = .ok p := by
  induction new with
  | nil => exact ⟨[], .nil, .nil, by simp⟩
  | cons x new ih =>
    obtain ⟨ps, h1, h2, h3⟩ := ih fun y hy => h y (.tail _ hy)
    obtain ⟨hsw, p, h4, h5⟩ := h x (.head _)
    have e : onAfter m x = m := by rw [onAfter, hsw]; rfl
    rw [e] at h4 h5
    refine ⟨p :: ps, .cons h4 h1, .cons h5 h2, ?_⟩
    intro q hq
    rcases List.mem_cons.1 hq with rfl | hq
    · exact ⟨x, .head _, by rw [h4]⟩
    · obtain ⟨y, hy, e⟩ := h3 q hq
      exact ⟨y, .tail _ hy, e⟩

/-- The dialogue takes place on packets. -/
theorem stack_packets {clock : Clock} {m : Bool} {cmds : List Command} (h : GoodRequests m cmds) (ctx : Ctx DevGeneral) :
    ∃ talk s' xs, talk.map (·.1) = cmds ∧ Dialogue devGeneral clock ⟨m, ctx⟩ talk s' ∧ Accessory m (seenBy m talk) xs ∧
      Conversation devGeneral clock ⟨m, ctx⟩ (xs.map fun x => [x.1]) s' (xs.flatMap fun x => x.2.map .ok) ∧
      (∀ x ∈ xs, Sendable x.1) ∧ ∀ x ∈ xs, ∀ r ∈ x.2, r.length ≤ 65535 ∧ r.length ≠ 256 := by
  induction h generalizing ctx with
  | nil => exact ⟨[], _, [], rfl, .nil, .nil, .nil, by simp, by simp⟩
  | @cons m cmd cmds hf ht hp hg ha _ ih =>
    obtain ⟨p, h1, h2⟩ := C95_survives hf
    have hr : Received (asSeen m cmd) := ⟨_, _, _, _, h2⟩
    obtain ⟨c, new0, e1, e2, _⟩ := handlePacket_emits devGeneral clock (asSeen m cmd) { ctx with out := [] }
    have hh : Handles devGeneral clock (asSeen m cmd) { ctx with out := [] } c c.out := ⟨e1, rfl⟩
    have ht' : onAfter m cmd = true → (asSeen m cmd).trx.isSome = true := by
      intro e; simp only [asSeen, e, if_true]; exact ht e
    have hs := (C95_answers_iff hr ht' hh).2 (by rw [garbled_seen]; exact hg)
    obtain ⟨ps, h3, h4, h5⟩ := answers_through c.out fun x hx => ⟨emitted_no_switch hr hh x hx, hs x hx⟩
    obtain ⟨talk, s', xs, t1, t2, t3, t4, t5, t6⟩ := ih { c with out := [] }
    refine ⟨(cmd, c.out) :: talk, s', (p, ps) :: xs, by rw [List.map_cons, t1], .cons hh t2, .cons h1 h4 t3, ?_, ?_, ?_⟩
    · have := conversation_append (conversation_one (ctx := ctx) h2 e1 h3) t4
      simpa using this
    · intro x hx
      rcases List.mem_cons.1 hx with rfl | hx
      · exact hp _ _ h1
      · exact t5 x hx
    · intro x hx
      rcases List.mem_cons.1 hx with rfl | hx
      · intro q hq
        obtain ⟨y, hy, e⟩ := h5 q hq
        rcases C80_sizes hr hh y hy _ q e with hl | ⟨ts, u, f1, f2, f3, f4⟩
        · omega
        · refine ⟨by omega, ?_⟩
          have f5 := ha ts u f1
          have hm : onAfter m cmd = m := by
            have : cmd.id = TypeId.id (.gen .SetFIDTokenValues) := (received_wf hr).2 _ _ f1
            rw [onAfter, this, ← switch_eq]
            exact handleCmdID_var rfl m
          rw [hm] at f2
          rw [f2]
          simp only [asSeen, hm]
          cases m with
          | false => exact f5
          | true => exact f5
      · exact t6 x hx

/-- C95. An accessory built on the library, making requests one per frame, and the server of the emulated iPod, over HID reports
in both directions. The server handles exactly the requests made, one after another, and the accessory sees exactly the commands
the server's handlers answered, in order. -/
theorem C95_stack_partial (clock : Clock) (grow grow' : Growth) (defs defs' : List ReportDef)
    (hg : GoodTable defs) (hg' : GoodTable defs') (hmax : ∀ d ∈ defs, d.maxPayload ≤ 1022) (hmax' : ∀ d ∈ defs', d.maxPayload ≤ 1022)
    (s : Srv DevGeneral) (cmds : List Command) (h : GoodRequests s.mode cmds) :
    ∃ talk s' xs, talk.map (·.1) = cmds ∧ Dialogue devGeneral clock s talk s' ∧ Accessory s.mode (seenBy s.mode talk) xs ∧
      ∀ requests : List (List Report), requests.length = xs.length →
        (∀ x ∈ xs.zip requests, Written defs (writePacket newPacketWriter x.1.1).1 x.2) →
        ∃ w, serve devGeneral clock grow defs (requests.flatMap arriving) s = .ret (s', w) ∧
          w.length = (xs.flatMap (·.2)).length ∧
          ∀ back : List (List Report), back.length = w.length → (∀ x ∈ w.zip back, Written defs' x.1 x.2) → ∀ buf,
            receive grow' defs' ((xs.flatMap (·.2)).map fun _ => 2) (back.flatMap arriving) buf =
              .ret ((xs.flatMap (·.2)).map fun p => .ok [.ok p, .error .eof]) := by
  obtain ⟨m, ctx⟩ := s
  obtain ⟨talk, s', xs, h1, h2, h3, h4, h5, h6⟩ := stack_packets (clock := clock) h ctx
  refine ⟨talk, s', xs, h1, h2, h3, fun requests hl hw => ?_⟩
  exact exchanges_over_reports devGeneral clock grow grow' defs defs' hg hg' hmax hmax' ⟨m, ctx⟩ s' xs requests hl
    (fun x hx => ⟨h5 _ (List.of_mem_zip hx).1, hw x hx⟩) h4 h6

/-- C95, uniqueness. The dialogue is determined by the requests. -/
theorem C95_dialogue_unique {σ : Type} {D : Device σ} {clock : Clock} {s s1 s2 : Srv σ} {talk1 talk2 : List (Command × List Command)}
    (h1 : Dialogue D clock s talk1 s1) (h2 : Dialogue D clock s talk2 s2) (e : talk1.map (·.1) = talk2.map (·.1)) :
    talk1 = talk2 ∧ s1 = s2 := by
  induction h1 generalizing talk2 with
  | nil =>
    cases h2 with
    | nil => exact ⟨rfl, rfl⟩
    | cons _ _ => cases e
  | @cons m ctx c s' cmd new talk hh _ ih =>
    cases h2 with
    | nil => cases e
    | @cons _ _ c' _ cmd' new' talk' hh' hd =>
      simp only [List.map_cons, List.cons.injEq] at e
      obtain ⟨rfl, e⟩ := e
      have : c' = c := by have := hh.1; rw [hh'.1] at this; injection this
      subst this
      have : new' = new := new_unique hh'.2 hh.2
      subst this
      obtain ⟨rfl, rfl⟩ := ih hd e
      exact ⟨rfl, rfl⟩

/-- The question for the title of the first track. -/
def askTitle : Command := ⟨TypeId.id (.disp .GetIndexedPlayingTrackInfo), none, .ptr (.disp .GetIndexedPlayingTrackInfo) (0x05, 0, 0, ())⟩

/-- C95 fails: the question for the title of a track (03 12 05) arrives as it was made, and the server answers it with the title, but
what the accessory gets is an error and a message without content. -/
theorem C95_fails {σ : Type} (D : Device σ) (clock : Clock) (c : Ctx σ) :
    Survives false askTitle ∧ ∃ x, handlePacket D clock askTitle c = .ret { c with out := c.out ++ [x] } ∧
      x.payload = .ptr (.disp .RetIndexedPlayingTrackInfo) (0x05, .track (stringToBytes (str "track")), ()) ∧
      ∃ q e, marshalCmd false x = (false, .ok q) ∧ unmarshalCmd false q = .ret (false, ⟨x.id, none, .nil⟩, some e) := by
  refine ⟨C95_survives (.fixed (lookupID_eq _) ((structSize_iff _ _).1 (rfl : _ = some 7)) (by simp)),
    ⟨TypeId.id (.disp .RetIndexedPlayingTrackInfo), none, .ptr (.disp .RetIndexedPlayingTrackInfo)
      (0x05, .track (stringToBytes (str "track")), ())⟩, ?_, rfl, [0x03, 0x13, 0x05], Err.invalidType, ?_⟩
  · have hl : askTitle.id.lingoID = 0x03 := lingoID_id (.disp .GetIndexedPlayingTrackInfo)
    unfold handlePacket
    rw [if_neg (by rw [hl]; decide), if_neg (by rw [hl]; decide), if_pos hl]
    have : dispTrackInfo 5 = some (.track (stringToBytes (str "track"))) := rfl
    simp only [handleDispRemote, askTitle, this, respond_eq]
  · decide +kernel

theorem not_garbled {id : UInt32} {trx : Option UInt16} {t : TypeId} {v : t.Val} (h : t ∉ [.gen .GetiPodAuthenticationInfo,
    .gen .GetNowPlayingFocusApp, .ext .GetCurrentPlayingTrackChapterName, .disp .GetIndexedEQProfileName, .disp .GetArtworkFormats,
    .disp .GetTrackArtworkTimes, .gen .SetFIDTokenValues, .disp .GetIndexedPlayingTrackInfo, .ext .GetIndexedPlayingTrackInfo]) :
    ¬ Garbled ⟨id, trx, .ptr t v⟩ := by
  simp only [List.mem_cons, List.not_mem_nil, or_false, not_or] at h
  rintro (h' | ⟨_, _, h', _, _⟩ | ⟨_, _, h', _⟩)
  · cases h' with
    | tokens ts u h' hk => injection h' with h'; simp_all
    | _ _ h' => injection h' with h'; simp_all
  · injection h' with h'; simp_all
  · injection h' with h'; simp_all

/-- An accessory identifies itself with transactions, asks for the name, names a preference, and asks for the state of the player. -/
example : GoodRequests false [
    ⟨TypeId.id (.gen .StartIDPS), some 1, .ptr (.gen .StartIDPS) ()⟩,
    ⟨TypeId.id (.gen .RequestiPodName), some 2, .ptr (.gen .RequestiPodName) ()⟩,
    ⟨TypeId.id (.gen .SetFIDTokenValues), some 3, .ptr (.gen .SetFIDTokenValues) ([⟨⟨0x00, 0x03⟩, .ipodPref 1 0 0⟩], ())⟩,
    ⟨TypeId.id (.ext .GetIndexedPlayingTrackInfo), some 4, .ptr (.ext .GetIndexedPlayingTrackInfo) (0x03, 0, 0, ())⟩] := by
  have s1 : onAfter false ⟨TypeId.id (.gen .StartIDPS), some 1, .ptr (.gen .StartIDPS) ()⟩ = true := by decide +kernel
  refine .cons (.fixed (lookupID_eq _) ((structSize_iff _ _).1 (rfl : _ = some 0)) (by simp)) (fun _ => rfl) ?_ ?_ (by simp) ?_
  · intro m p h
    have e : marshalCmd false ⟨TypeId.id (.gen .StartIDPS), some 1, .ptr (.gen .StartIDPS) ()⟩ = (true, .ok [0x00, 0x38, 0x00, 0x01]) := by
      decide +kernel
    rw [e] at h; cases h; exact ⟨by decide, by decide, by decide⟩
  · exact not_garbled (by simp)
  rw [s1]
  have s2 : onAfter true ⟨TypeId.id (.gen .RequestiPodName), some 2, .ptr (.gen .RequestiPodName) ()⟩ = true := by decide +kernel
  refine .cons (.fixed (lookupID_eq _) ((structSize_iff _ _).1 (rfl : _ = some 0)) (by simp)) (fun _ => rfl) ?_ ?_ (by simp) ?_
  · intro m p h
    have e : marshalCmd true ⟨TypeId.id (.gen .RequestiPodName), some 2, .ptr (.gen .RequestiPodName) ()⟩ =
        (true, .ok [0x00, 0x07, 0x00, 0x02]) := by decide +kernel
    rw [e] at h; cases h; exact ⟨by decide, by decide, by decide⟩
  · exact not_garbled (by simp)
  rw [s2]
  have s3 : onAfter true ⟨TypeId.id (.gen .SetFIDTokenValues), some 3, .ptr (.gen .SetFIDTokenValues) ([⟨⟨0x00, 0x03⟩, .ipodPref 1 0 0⟩], ())⟩ =
      true := by decide +kernel
  refine .cons (.var (lookupID_eq _) (.tokens _ (by simp) (by simp [TokenOK])) (by simp [IsTrackText]) (fun _ => rfl)) (fun _ => rfl) ?_ ?_ ?_ ?_
  · intro m p h
    have e : marshalCmd true ⟨TypeId.id (.gen .SetFIDTokenValues), some 3, .ptr (.gen .SetFIDTokenValues) ([⟨⟨0x00, 0x03⟩, .ipodPref 1 0 0⟩], ())⟩ =
        (true, .ok [0x00, 0x39, 0x00, 0x03, 0x01, 0x05, 0x00, 0x03, 0x01, 0x00, 0x00]) := by decide +kernel
    rw [e] at h; cases h; exact ⟨by decide, by decide, by decide⟩
  · rintro (h | ⟨_, _, h, _, _⟩ | ⟨_, _, h, _⟩)
    · cases h with
      | tokens ts u h hk =>
        cases h
        obtain ⟨t, ht, hk⟩ := hk
        rw [List.mem_singleton.1 ht] at hk
        rcases hk with ⟨_, hk⟩ | hk <;> cases hk
      | _ _ h => cases h
    · cases h
    · cases h
  · intro ts u h
    cases h
    decide
  rw [s3]
  refine .cons (.fixed (lookupID_eq _) ((structSize_iff _ _).1 (rfl : _ = some 7)) (by simp)) (fun _ => rfl) ?_ ?_ (by simp) .nil
  · intro m p h
    have e : marshalCmd true ⟨TypeId.id (.ext .GetIndexedPlayingTrackInfo), some 4, .ptr (.ext .GetIndexedPlayingTrackInfo) (0x03, 0, 0, ())⟩ =
        (true, .ok [0x04, 0x00, 0x0C, 0x00, 0x04, 0x03, 0, 0, 0, 0, 0, 0]) := by decide +kernel
    rw [e] at h; cases h; exact ⟨by decide, by decide, by decide⟩
  · rintro (h | ⟨_, _, h, _, _⟩ | ⟨_, _, h, hn⟩)
    · cases h with
      | tokens ts u h hk => cases h
      | _ _ h => cases h
    · cases h
    · cases h; exact hn (by decide)

end Props
