import Verif.Spec.Load
import Verif.Lemmas.Grouping
import Verif.Props.Fits
import Verif.Props.Handshake

/-! # Property C93: how much the server sends and keeps -/

namespace Props
open Go Spec Ipod

/-! ## C93 -/

theorem answers_count (l c : Nat) : ∀ a ∈ answers l c, a.length ≤ 3 := by
  intro a ha
  simp only [answers, List.mem_cons, List.not_mem_nil, or_false] at ha
  repeat' split at ha
  all_goals
    simp only [List.mem_cons, List.not_mem_nil, or_false] at ha
    (try rcases ha with rfl | rfl | rfl) <;> (try rcases ha with rfl | rfl) <;> (try subst ha) <;> simp

/-- Several answers are these. -/
theorem answers_several (l c : Nat) : ∀ a ∈ answers l c, 2 ≤ a.length →
    a ∈ ([[(0x00, 0x02), (0x00, 0x02)], [(0x00, 0x02), (0x00, 0x14)], [(0x0A, 0x02), (0x00, 0x16)],
      [(0x0A, 0x02), (0x00, 0x16), (0x00, 0x17)], [(0x00, 0x3C), (0x00, 0x14)]] : List (List (Nat × Nat))) := by
  intro a ha
  simp only [answers, List.mem_cons, List.not_mem_nil, or_false] at ha
  repeat' split at ha
  all_goals
    simp only [List.mem_cons, List.not_mem_nil, or_false] at ha
    (try rcases ha with rfl | rfl | rfl) <;> (try rcases ha with rfl | rfl) <;> (try subst ha) <;> simp

/-- Sizes of the messages that come together with others. -/
def together (p : Nat × Nat) : Nat := if p = (0x00, 0x02) then 8 else if p = (0x00, 0x17) then 21 else 1

theorem together_table : ∀ t ∈ TypeId.all, idPair t.id ∈ ([(0x00, 0x02), (0x00, 0x14), (0x0A, 0x02), (0x00, 0x16), (0x00, 0x17),
    (0x00, 0x3C)] : List (Nat × Nat)) → (t.size.map fun n => decide (n ≤ together (idPair t.id))) = some true := by
  decide +kernel

theorem emitted_typed {σ : Type} {D : Device σ} {clock : Clock} {cmd : Command} {c c' : Ctx σ} {new : List Command}
    (h : Handles D clock cmd c c' new) {x : Command} (hx : x ∈ new) : ∃ t v, x.payload = .ptr t v ∧ x.id = t.id := by
  rcases handles_mem h hx with ⟨rfl, _⟩ | hx
  · exact ⟨_, _, rfl, rfl⟩
  · obtain ⟨t, v, h1, h2, _⟩ := hx.typed; exact ⟨t, v, h1, h2⟩

theorem unknown_one {σ : Type} {D : Device σ} {clock : Clock} {cmd : Command} {c c' : Ctx σ} {new : List Command}
    (h : Handles D clock cmd c c' new) {b : Bytes} (hp : cmd.payload = .unknown b) : new.length ≤ 1 := by
  obtain ⟨h1, h2⟩ := h
  rcases handlePacket_of_lingo h1 with ⟨e, h1⟩ | ⟨e, h1⟩ | ⟨e, h1⟩ | ⟨e, h1⟩ | ⟨e, rfl⟩
  · rw [afterAudio, hp] at h1
    simp only [authComplete, Bool.false_eq_true, if_false, handleGeneral, hp, Ctx.ack, respond_eq] at h1
    cases h1
    rw [out1 h2]; simp
  · simp only [handleDispRemote, hp] at h1; cases h1; rw [out0 h2]; simp
  · simp only [handleExtRemote, hp] at h1; cases h1; rw [out0 h2]; simp
  · simp only [handleAudio, hp] at h1; cases h1; rw [out0 h2]; simp
  · rw [out0 h2]; simp

/-- C93, any device: a command has at most three answers. -/
theorem C93_answers {σ : Type} {D : Device σ} {clock : Clock} {cmd : Command} {c c' : Ctx σ} {new : List Command}
    (hr : Received cmd) (h : Handles D clock cmd c c' new) : new.length ≤ 3 := by
  cases hp : cmd.payload with
  | nil => rw [(C64_undecodable h hp).1]; simp
  | ptr t v => simpa using answers_count _ _ _ (C64_replies hr h hp)
  | unknown b => have := unknown_one h hp; omega

/-! ### Sizes -/

theorem frameOf_le (r : Except Err Bytes) (n : Nat) (h : ∀ p, r = .ok p → p.length ≤ n) :
    (frameOf r).length ≤ n + 5 ∧ (n ≤ 255 → (frameOf r).length ≤ n + 3) := by
  cases r with
  | error e => exact ⟨Nat.zero_le _, fun _ => Nat.zero_le _⟩
  | ok p =>
    have hp := h p rfl
    cases p with
    | nil => exact ⟨Nat.zero_le _, fun _ => Nat.zero_le _⟩
    | cons a p =>
      simp only [frameOf, writePacket_ne _ _ (by simp : a :: p ≠ []), newPacketWriter, List.nil_append, List.length_cons,
        List.length_append, writtenHeader] at hp ⊢
      refine ⟨?_, fun hn => ?_⟩
      · split <;> simp <;> omega
      · rw [if_neg (by simp [largePacketMinLen]; omega)]; simp; omega

/-- The wire bytes of a message whose type has a fixed size. -/
theorem frameIn_fixed {m : Bool} {x : Command} {t : TypeId} {v : t.Val} {n k : Nat} (h1 : x.payload = .ptr t v)
    (hn : t.size = some n) (hk : n ≤ k) (hk' : k ≤ 200) : (frameIn m x).length ≤ k + 8 := by
  refine (frameOf_le _ (k + 5) fun p hp => ?_).2 (by omega)
  rw [marshalCmd_eq] at hp
  simp only [h1, encodePayload_fixed hn, Except.ok.injEq] at hp
  subst hp
  have hid : (idBytes (LingoCmdID.lingoID x.id) (LingoCmdID.cmdID x.id)).length ≤ 3 := by unfold idBytes; split <;> simp
  have ht := trxBytes_length (sentTrx (handleCmdID m x.id) x.trx)
  simp only [List.length_append, ht, encStruct_length hn]
  split <;> omega

theorem together_le (q : Nat × Nat) : together q ≤ 200 := by
  unfold together
  repeat' split
  all_goals omega

/-- The messages that come together with others are short. -/
theorem together_short {σ : Type} {D : Device σ} {clock : Clock} {cmd : Command} {c c' : Ctx σ} {new : List Command}
    (h : Handles D clock cmd c c' new) {m : Bool} {x : Command} (hx : x ∈ new)
    (hi : idPair x.id ∈ ([(0x00, 0x02), (0x00, 0x14), (0x0A, 0x02), (0x00, 0x16), (0x00, 0x17), (0x00, 0x3C)] : List (Nat × Nat))) :
    (frameIn m x).length ≤ together (idPair x.id) + 8 := by
  obtain ⟨t, v, h1, h2⟩ := emitted_typed h hx
  rw [h2] at hi ⊢
  obtain ⟨n, hn, hd⟩ := Option.map_eq_some_iff.1 (together_table t (TypeId.mem_all t) hi)
  exact frameIn_fixed h1 hn (of_decide_eq_true hd) (together_le _)

theorem tokens_le {m m' : Bool} {pkt : Bytes} {cmd : Command} {e : Option Err} (h : unmarshalCmd m pkt = .ret (m', cmd, e))
    {ts : List FIDTokenValue} {u : SVal []} (hp : cmd.payload = .ptr (.gen .SetFIDTokenValues) (ts, u)) : ts.length + 3 ≤ pkt.length := by
  obtain ⟨h1, h2⟩ := C19_decode_result _ _ _ _ _ h
  cases e with
  | some e =>
    rcases h1 (by simp) with h | ⟨l, k, r, _, h, _⟩
    · rw [hp] at h; cases h
    · rw [h] at hp; cases hp
  | none =>
    obtain ⟨l, k, body, t, v, e1, e2, e3, e4, h4⟩ := h2 rfl
    rw [hp] at e4
    cases e4
    obtain ⟨n, r, rfl, h4⟩ := (h4 : CountedReads TokenValueReads body ts)
    have : ∀ {n r l}, ListReads TokenValueReads n r l → l.length ≤ r.length := by
      intro n r l h
      induction h with
      | nil => simp
      | cons _ _ ih => simp at ih ⊢; omega
    have : ts.length ≤ r.length := this h4
    have hid : 2 ≤ (idBytes l k).length := by unfold idBytes; split <;> simp
    rw [e1]
    simp only [List.length_append, List.length_cons]
    omega

/-- Packets too short to name a command have no payload. -/
theorem named_le {m m' : Bool} {pkt : Bytes} {cmd : Command} {e : Option Err} (h : unmarshalCmd m pkt = .ret (m', cmd, e))
    (hp : cmd.payload ≠ .nil) : 2 ≤ pkt.length := by
  obtain ⟨h1, h2⟩ := C19_decode_result _ _ _ _ _ h
  have hid : ∀ l k, 2 ≤ (idBytes l k).length := by intro l k; unfold idBytes; split <;> simp
  cases e with
  | some e =>
    rcases h1 (by simp) with h | ⟨l, k, r, e, _⟩
    · exact absurd h hp
    · rw [e, List.length_append]; have := hid l k; omega
  | none =>
    obtain ⟨l, k, body, t, v, e1, _⟩ := h2 rfl
    rw [e1, List.length_append, List.length_append]; have := hid l k; omega

theorem ackPacketLength_le (sent : Option UInt16) (ts : List FIDTokenValue) : ackPacketLength sent ts ≤ 5 + 5 * ts.length := by
  have hle : (ts.map ackWidth).sum ≤ 5 * ts.length := by
    induction ts with
    | nil => simp
    | cons t ts ih =>
      have : ackWidth t ≤ 5 := by unfold ackWidth; split <;> omega
      simp only [List.map_cons, List.sum_cons, List.length_cons]
      omega
  unfold ackPacketLength
  split <;> omega

theorem several_le {cmd : Command} {clock : Clock} {c c' : Ctx DevGeneral} {new : List Command}
    (h : Handles devGeneral clock cmd c c' new) (m : Bool) {l : List (Nat × Nat)} (he : new.map (fun x => idPair x.id) = l)
    (hl : ∀ q ∈ l, q ∈ ([(0x00, 0x02), (0x00, 0x14), (0x0A, 0x02), (0x00, 0x16), (0x00, 0x17), (0x00, 0x3C)] : List (Nat × Nat))) :
    total (new.map (frameIn m)) ≤ (l.map fun q => together q + 8).sum := by
  have hs : ∀ x ∈ new, (frameIn m x).length ≤ together (idPair x.id) + 8 :=
    fun x hx => together_short h hx (hl _ (he ▸ List.mem_map_of_mem hx))
  subst he
  clear h hl
  induction new with
  | nil => exact Nat.le_refl _
  | cons x new ih =>
    have h1 := hs x (.head _)
    have h2 := ih fun y hy => hs y (.tail _ hy)
    simp only [total, List.map_cons, List.sum_cons, List.map_map] at h2 ⊢
    omega

/-- One packet. -/
theorem packet_load {clock : Clock} {m0 m1 m : Bool} {p : Bytes} {cmd : Command} {e : Option Err} {c c' : Ctx DevGeneral}
    {new : List Command} (hu : unmarshalCmd m0 p = .ret (m1, cmd, e)) (h : Handles devGeneral clock cmd c c' new) :
    total (new.map (frameIn m)) ≤ 10 * (p.length + 3) := by
  have hr : Received cmd := ⟨_, _, _, _, hu⟩
  by_cases hn : cmd.payload = .nil
  · rw [(C64_undecodable h hn).1]; exact Nat.zero_le _
  have h2 := named_le hu hn
  match new, h with
  | [], h => exact Nat.zero_le _
  | [x], h =>
    have hx := C80_sizes hr h x (.head _) m
    simp only [total, List.map_cons, List.map_nil, List.sum_cons, List.sum_nil, Nat.add_zero]
    by_cases hb : ∃ ts u, cmd.payload = .ptr (.gen .SetFIDTokenValues) (ts, u)
    · obtain ⟨ts, u, ht⟩ := hb
      have h3 := tokens_le hu ht
      have := (frameOf_le (marshalCmd m x).2 (45 + 5 * ts.length) fun q hq => by
        rcases hx q hq with h | ⟨ts', u', e1, e2, _⟩
        · omega
        · rw [ht] at e1; cases e1
          have := ackPacketLength_le (if m then cmd.trx else none) ts
          omega).1
      simp only [frameIn]
      omega
    · have := (frameOf_le (marshalCmd m x).2 45 fun q hq => by
        rcases hx q hq with h | ⟨ts', u', e1, e2, _⟩
        · omega
        · exact absurd ⟨_, _, e1⟩ hb).2 (by omega)
      simp only [frameIn]
      omega
  | x :: y :: r, h =>
    cases hp : cmd.payload with
    | nil => exact absurd hp hn
    | unknown b =>
      have := unknown_one h hp
      simp at this
    | ptr t v =>
      have ha := C64_replies hr h hp
      have hs := answers_several _ _ _ ha (by simp)
      generalize hl : (x :: y :: r).map (fun x => idPair x.id) = l at hs
      have := several_le h m hl (by
        intro q hq
        simp only [List.mem_cons, List.not_mem_nil, or_false] at hs
        rcases hs with rfl | rfl | rfl | rfl | rfl <;>
          simp only [List.mem_cons, List.not_mem_nil, or_false] at hq ⊢ <;> grind)
      have hb : (l.map fun q => together q + 8).sum ≤ 50 := by
        clear this hl ha
        revert l; decide +kernel
      omega

/-! ### Frames and sessions -/

theorem scan_load {spare d : Bytes} {ps : List Bytes} {b : Bool} (h : Scan spare d ps b) :
    (ps.map fun p => p.length + 3).sum ≤ d.length := by
  induction h with
  | done _ => exact Nat.zero_le _
  | crash _ _ => exact Nat.zero_le _
  | packet _ hp _ ih =>
    obtain ⟨hdr, ck, hh, rfl, _⟩ := hp
    have : 1 ≤ hdr.length := by
      rcases hdr with _ | ⟨a, hdr⟩
      · exact absurd hh (by simp [LenHeader])
      · simp
    simp only [List.map_cons, List.sum_cons, List.length_append, List.length_cons]
    omega
  | skip _ _ _ _ ih => simp only [List.length_append, List.length_cons]; omega

/-- What is sent for the packets, and what is kept of them. -/
theorem packets_load {clock : Clock} {m m' : Bool} {ps : List Bytes} {cmds : List Command} (hd : Decoded m ps m' cmds)
    {c c' : Ctx DevGeneral} {news : List (List Command)} (h : HandledEach devGeneral clock cmds c c' news) (k : Bool) :
    total (news.flatten.map (frameIn k)) ≤ 10 * (ps.map fun p => p.length + 3).sum := by
  induction hd generalizing c news with
  | nil => cases h; exact Nat.le_refl _
  | cons hu _ ih =>
    cases h with
    | cons hh ht =>
      have h1 := packet_load (m := k) hu hh
      have h2 := ih ht
      simp only [total, List.flatten_cons, List.map_append, List.sum_append, List.map_cons, List.sum_cons] at h1 h2 ⊢
      omega

theorem course_split {clock : Clock} {s s' : Srv DevGeneral} {d spare : Bytes} {w : List Bytes}
    (h : processFrame devGeneral clock s ⟨d, spare⟩ = .ret (s', w)) :
    ∃ ps cmds c news, Scan spare d ps false ∧ Decoded s.mode ps s'.mode cmds ∧
      HandledEach devGeneral clock cmds { s.ctx with out := [] } c news ∧ s'.ctx = { c with out := [] } ∧
      w = news.flatten.map (frameIn s'.mode) := by
  obtain ⟨ps, m, cmds, c, news, h1, _⟩ := C56_frame_per_response_partial h
  rw [processFrame_course _ _ _ h1] at h
  unfold course at h
  cases hd : decodeAll s.mode ps with
  | panic => rw [hd] at h; cases h
  | ret y =>
    obtain ⟨c, news, e1, e2, e3⟩ := handleAll_ret devGeneral clock y.2 { s.ctx with out := [] }
    rw [hd] at h
    simp only [Out.bind_ret, e1, Out.ret.injEq, Prod.mk.injEq] at h
    obtain ⟨rfl, rfl⟩ := h
    refine ⟨ps, y.2, c, news, h1, decodeAll_ret.1 hd, e2, rfl, ?_⟩
    rw [e3]; rfl

/-- C93, one frame: at most ten times as many bytes are sent as were received. -/
theorem C93_frame {clock : Clock} {s s' : Srv DevGeneral} {d spare : Bytes} {w : List Bytes}
    (h : processFrame devGeneral clock s ⟨d, spare⟩ = .ret (s', w)) : total w ≤ 10 * d.length := by
  obtain ⟨ps, cmds, c, news, h1, h2, h3, h4, rfl⟩ := course_split h
  have := packets_load h2 h3 s'.mode
  have := scan_load h1
  omega

/-- C93, sessions: at most ten times as many bytes are sent as were received. -/
theorem C93_session {clock : Clock} (reads : List (Except Err Slice)) {s s' : Srv DevGeneral} {w : List Bytes}
    (h : processFrames devGeneral clock reads s = .ret (s', w)) : total w ≤ 10 * total (framesRead reads) := by
  induction reads generalizing s w with
  | nil => cases h; exact Nat.zero_le _
  | cons r reads ih =>
    cases r with
    | error e =>
      cases e
      case eof => cases h; exact Nat.zero_le _
      all_goals exact ih h
    | ok f =>
      simp only [processFrames] at h
      cases h1 : processFrame devGeneral clock s f with
      | panic => rw [h1] at h; cases h
      | ret x =>
        rw [h1, Out.bind_ret] at h
        cases h2 : processFrames devGeneral clock reads x.1 with
        | panic => rw [h2] at h; cases h
        | ret y =>
          rw [h2] at h
          cases h
          have e1 := C93_frame h1
          have e2 := ih h2
          simp only [total, framesRead, List.map_append, List.sum_append, List.filterMap_cons, Except.toOption, Option.map_some,
            List.map_cons, List.sum_cons] at e1 e2 ⊢
          omega

/-- `RequestiPodName`, alone. -/
example : ∃ s' w, processFrames devGeneral (fun _ => ⟨2024, 1, 2, 3, 4⟩) [.ok ⟨[0x55, 0x02, 0x00, 0x07, 0xF7], []⟩] (Srv.init DevGeneral.zero) =
    .ret (s', w) ∧ w ≠ [] ∧ total w ≤ 10 * total (framesRead [.ok ⟨[0x55, 0x02, 0x00, 0x07, 0xF7], []⟩]) := by
  obtain ⟨s', h⟩ := nameFrame_answered
  have h' : processFrames devGeneral (fun _ => ⟨2024, 1, 2, 3, 4⟩) [.ok ⟨[0x55, 0x02, 0x00, 0x07, 0xF7], []⟩] (Srv.init DevGeneral.zero) = .ret (s', [[0x55, 0x0E, 0x00,
      0x08, 0x69, 0x70, 0x6F, 0x64, 0x2D, 0x67, 0x61, 0x64, 0x67, 0x65, 0x74, 0x00, 0xA5]]) := by
    rw [processFrames, h]; rfl
  exact ⟨s', _, h', by simp, C93_session _ h'⟩

/-! ### What is kept -/

/-- The section of a certificate a command carries. -/
def sectionOf (cmd : Command) : Bytes :=
  match cmd.payload with
  | .ptr (.gen .RetDevAuthenticationInfo) (_, _, _, _, data, _) => data
  | _ => []

theorem general_cert {σ : Type} {D : Device σ} {cmd : Command} {c c' : Ctx σ} (h : handleGeneral D cmd c = .ret c') :
    c'.certBuf.length ≤ c.certBuf.length + (sectionOf cmd).length := by
  unfold handleGeneral at h
  split at h
  all_goals rename_i hq
  all_goals try simp only [Ctx.ack, Ctx.ackSuccess, Ctx.ackPending, respond_eq, send_eq, out_ret_bind] at h
  all_goals repeat' split at h
  all_goals cases h
  all_goals first
    | exact Nat.le_add_right _ _
    | (simp only [sectionOf, hq]; simp; done)

theorem section_le {m m' : Bool} {pkt : Bytes} {cmd : Command} {e : Option Err} (h : unmarshalCmd m pkt = .ret (m', cmd, e)) :
    (sectionOf cmd).length + (tokensOf cmd).length ≤ pkt.length := by
  obtain ⟨h1, h2⟩ := C19_decode_result _ _ _ _ _ h
  by_cases ht : ∃ ts u, cmd.payload = .ptr (.gen .SetFIDTokenValues) (ts, u)
  · obtain ⟨ts, u, ht⟩ := ht
    have := tokens_le h ht
    simp only [sectionOf, tokensOf, ht, List.length_nil]
    omega
  by_cases ha : ∃ v, cmd.payload = .ptr (.gen .RetDevAuthenticationInfo) v
  · obtain ⟨v, ha⟩ := ha
    cases e with
    | some e =>
      rcases h1 (by simp) with h | ⟨l, k, r, _, h, _⟩
      · rw [ha] at h; cases h
      · rw [h] at ha; cases ha
    | none =>
      obtain ⟨l, k, body, t, v', e1, e2, e3, e4, h4⟩ := h2 rfl
      rw [ha] at e4
      cases e4
      obtain ⟨major, minor, cur, max, data, u⟩ := v
      have : data.length ≤ body.length := by
        rcases (h4 : AuthInfoReads body (major, minor, cur, max, data, u)) with ⟨_, rfl⟩ | ⟨_, _, _, rfl, _⟩
        · rw [List.length_append]; exact Nat.le_add_left _ _
        · exact Nat.zero_le _
      simp only [sectionOf, tokensOf, ha, List.length_nil, e1, List.length_append]
      omega
  · have h3 : sectionOf cmd = [] := by
      unfold sectionOf; split
      · exact absurd ⟨_, ‹_›⟩ ha
      · rfl
    have h4 : tokensOf cmd = [] := by
      unfold tokensOf; split
      · exact absurd ⟨_, _, ‹_›⟩ ht
      · rfl
    simp [h3, h4]

theorem kept_step {clock : Clock} {cmd : Command} {c c' : Ctx DevGeneral} {new : List Command}
    (h : Handles devGeneral clock cmd c c' new) :
    c'.certBuf.length + c'.dev.tokens.length ≤ c.certBuf.length + c.dev.tokens.length + ((sectionOf cmd).length + (tokensOf cmd).length) := by
  obtain ⟨h, _⟩ := h
  by_cases hl : cmd.id.lingoID = 0x00
  · rw [handlePacket_general _ _ _ _ hl] at h
    have h1 := general_cert h
    have h2 := (devGeneral_general _ _ _ h).2
    have e : (afterAudio cmd c).certBuf = c.certBuf ∧ (afterAudio cmd c).dev = c.dev := by
      unfold afterAudio; split <;> exact ⟨rfl, rfl⟩
    rw [e.1] at h1
    rw [e.2] at h2
    rw [h2]
    split
    · simp; omega
    · rw [List.length_append]; omega
  · obtain ⟨h1, h2, _⟩ := handlePacket_other hl h
    rw [h1, h2]
    omega

/-- C93, one frame: what is kept grows by at most the size of the frame. -/
theorem C93_kept_frame {clock : Clock} {s s' : Srv DevGeneral} {d spare : Bytes} {w : List Bytes}
    (h : processFrame devGeneral clock s ⟨d, spare⟩ = .ret (s', w)) : kept s' ≤ kept s + d.length := by
  obtain ⟨ps, cmds, c, news, h1, h2, h3, h4, -⟩ := course_split h
  have hs := scan_load h1
  suffices ∀ (a b : Ctx DevGeneral) news, HandledEach devGeneral clock cmds a b news →
      b.certBuf.length + b.dev.tokens.length ≤ a.certBuf.length + a.dev.tokens.length + (ps.map fun p => p.length + 3).sum by
    have := this _ _ _ h3
    simp only [kept, h4] at this ⊢
    omega
  clear hs h3 h1 h4
  generalize s.mode = m, s'.mode = m' at h2
  induction h2 with
  | nil => intro a b news h; cases h; simp
  | cons hu _ ih =>
    intro a b news h
    cases h with
    | cons hh ht =>
      have e1 := kept_step hh
      have e2 := ih _ _ _ ht
      have e3 := section_le hu
      simp only [List.map_cons, List.sum_cons]
      omega

/-- C93, sessions: what is kept grows by at most what was received. -/
theorem C93_kept_session {clock : Clock} (reads : List (Except Err Slice)) {s s' : Srv DevGeneral} {w : List Bytes}
    (h : processFrames devGeneral clock reads s = .ret (s', w)) : kept s' ≤ kept s + total (framesRead reads) := by
  induction reads generalizing s w with
  | nil => cases h; exact Nat.le_add_right _ _
  | cons r reads ih =>
    cases r with
    | error e =>
      cases e
      case eof => cases h; exact Nat.le_add_right _ _
      all_goals exact ih h
    | ok f =>
      simp only [processFrames] at h
      cases h1 : processFrame devGeneral clock s f with
      | panic => rw [h1] at h; cases h
      | ret x =>
        rw [h1, Out.bind_ret] at h
        cases h2 : processFrames devGeneral clock reads x.1 with
        | panic => rw [h2] at h; cases h
        | ret y =>
          rw [h2] at h
          cases h
          have e1 := C93_kept_frame h1
          have e2 := ih h2
          simp only [total, framesRead, List.filterMap_cons, Except.toOption, Option.map_some,
            List.map_cons, List.sum_cons] at e2 ⊢
          omega

example : ∃ s' w, processFrames devGeneral (fun _ => ⟨2024, 1, 2, 3, 4⟩) [.ok ⟨[0x55, 0x02, 0x00, 0x07, 0xF7], []⟩] (Srv.init DevGeneral.zero) =
    .ret (s', w) ∧ kept s' ≤ kept (Srv.init DevGeneral.zero) + total (framesRead [.ok ⟨[0x55, 0x02, 0x00, 0x07, 0xF7], []⟩]) := by
  obtain ⟨s', h⟩ := nameFrame_answered
  have h' : processFrames devGeneral (fun _ => ⟨2024, 1, 2, 3, 4⟩) [.ok ⟨[0x55, 0x02, 0x00, 0x07, 0xF7], []⟩] (Srv.init DevGeneral.zero) = .ret (s', [[0x55, 0x0E, 0x00,
      0x08, 0x69, 0x70, 0x6F, 0x64, 0x2D, 0x67, 0x61, 0x64, 0x67, 0x65, 0x74, 0x00, 0xA5]]) := by
    rw [processFrames, h]; rfl
  exact ⟨s', _, h', C93_kept_session _ h'⟩

/-! ### But there is no bound -/

/-- Section 1 of 2 of a certificate, of one byte. -/
def sectionFrame : Bytes := [0x55, 0x07, 0x00, 0x15, 0x02, 0x00, 0x01, 0x02, 0xAA, 0x35]

theorem sectionFrame_scan : Scan [] sectionFrame [[0x00, 0x15, 0x02, 0x00, 0x01, 0x02, 0xAA]] false :=
  .packet (j := []) (w := sectionFrame) (rest := []) (by intro hx; cases hx)
    ⟨[0x07], 0x35, .inl ⟨7, by decide, rfl, rfl⟩, rfl, by decide +kernel⟩ (.done (by intro hx; cases hx))

theorem sectionFrame_step (clock : Clock) (dev : DevGeneral) (buf : Bytes) (k' : UInt32) (t : Nat) :
    processFrame devGeneral clock ⟨false, ⟨dev, buf, k', [], t⟩⟩ ⟨sectionFrame, []⟩ =
      .ret (⟨false, ⟨dev, buf ++ [0xAA], k', [], t⟩⟩, [[0x55, 0x04, 0x00, 0x02, 0x00, 0x15, 0xE5]]) := by
  have h : unmarshalCmd false [0x00, 0x15, 0x02, 0x00, 0x01, 0x02, 0xAA] = _ :=
    decode_var (t := .gen .RetDevAuthenticationInfo) rfl (trx := none) (mode := false) rfl (body := [0x02, 0x00, 0x01, 0x02, 0xAA])
      (v := (2, 0, 1, 2, [0xAA], ())) rfl
  have hl : LingoCmdID.lingoID (TypeId.id (.gen .RetDevAuthenticationInfo)) = 0x00 := lingoID_id (.gen .RetDevAuthenticationInfo)
  rw [processFrame_course _ _ _ sectionFrame_scan]
  simp only [course, decodeAll, h, Out.bind_ret, handleAll]
  rw [handlePacket_general devGeneral clock ⟨TypeId.id (.gen .RetDevAuthenticationInfo), none, _⟩ _ hl,
    afterAudio, if_neg (by decide +kernel), general_section devGeneral _ _ 2 0 1 2 [0xAA] rfl (by decide)]
  rw [if_pos (by decide), if_neg (by decide)]
  simp only [Out.bind_ret, List.nil_append, List.map_cons, List.map_nil]
  rw [show frameIn false ⟨TypeId.id (.gen .ACK), none, .ptr (.gen .ACK) (ackStatusSuccess,
    (LingoCmdID.cmdID (TypeId.id (.gen .RetDevAuthenticationInfo))).toUInt8, ())⟩ = [0x55, 0x04, 0x00, 0x02, 0x00, 0x15, 0xE5] by
      decide +kernel]

/-- `C93_frame`, `C93_kept_frame` and `C93_session` on a section of a certificate. -/
example (clock : Clock) : ∃ s' w, processFrame devGeneral clock (Srv.init ⟨0, []⟩) ⟨sectionFrame, []⟩ = .ret (s', w) ∧
    total w ≤ 10 * sectionFrame.length ∧ kept s' ≤ kept (Srv.init ⟨0, []⟩) + sectionFrame.length :=
  ⟨_, _, sectionFrame_step clock ⟨0, []⟩ [] 0 0, C93_frame (sectionFrame_step clock ⟨0, []⟩ [] 0 0),
    C93_kept_frame (sectionFrame_step clock ⟨0, []⟩ [] 0 0)⟩

theorem sectionFrame_steps (clock : Clock) (dev : DevGeneral) (buf : Bytes) (k' : UInt32) (t n : Nat) :
    ∃ w, processFrames devGeneral clock (List.replicate n (.ok ⟨sectionFrame, []⟩)) ⟨false, ⟨dev, buf, k', [], t⟩⟩ =
      .ret (⟨false, ⟨dev, buf ++ List.replicate n 0xAA, k', [], t⟩⟩, w) := by
  induction n generalizing buf with
  | zero => exact ⟨[], by simp [processFrames]⟩
  | succ n ih =>
    obtain ⟨w, hw⟩ := ih (buf ++ [0xAA])
    refine ⟨[[0x55, 0x04, 0x00, 0x02, 0x00, 0x15, 0xE5]] ++ w, ?_⟩
    rw [List.replicate_succ, processFrames, sectionFrame_step, Out.bind_ret, hw, Out.bind_ret]
    simp [List.replicate_succ]

/-- One token, of a kind the server does not know. -/
def tokenFrame : Bytes := [0x55, 0x06, 0x00, 0x39, 0x01, 0x02, 0x7F, 0x7F, 0xC0]

theorem tokenFrame_scan : Scan [] tokenFrame [[0x00, 0x39, 0x01, 0x02, 0x7F, 0x7F]] false :=
  .packet (j := []) (w := tokenFrame) (rest := []) (by intro hx; cases hx)
    ⟨[0x06], 0xC0, .inl ⟨6, by decide, rfl, rfl⟩, rfl, by decide +kernel⟩ (.done (by intro hx; cases hx))

theorem tokenFrame_step (clock : Clock) (dev : DevGeneral) (buf : Bytes) (k' : UInt32) (t : Nat) :
    ∃ v w, processFrame devGeneral clock ⟨false, ⟨dev, buf, k', [], t⟩⟩ ⟨tokenFrame, []⟩ =
      .ret (⟨false, ⟨{ dev with tokens := dev.tokens ++ [v] }, buf, k', [], t⟩⟩, w) := by
  have h : unmarshalCmd false [0x00, 0x39, 0x01, 0x02, 0x7F, 0x7F] = _ :=
    decode_var (t := .gen .SetFIDTokenValues) rfl (trx := none) (mode := false) rfl (body := [0x01, 0x02, 0x7F, 0x7F])
      (v := ([⟨⟨0x7F, 0x7F⟩, .raw []⟩], ())) rfl
  have hl : LingoCmdID.lingoID (TypeId.id (.gen .SetFIDTokenValues)) = 0x00 := lingoID_id (.gen .SetFIDTokenValues)
  rw [processFrame_course _ _ _ tokenFrame_scan]
  simp only [course, decodeAll, h, Out.bind_ret, handleAll]
  rw [handlePacket_general devGeneral clock ⟨TypeId.id (.gen .SetFIDTokenValues), none, _⟩ _ hl,
    afterAudio, if_neg (by decide +kernel)]
  simp only [handleGeneral, respond_eq, Out.bind_ret, foldl_setToken]
  exact ⟨_, _, rfl⟩

theorem tokenFrame_steps (clock : Clock) (dev : DevGeneral) (buf : Bytes) (k' : UInt32) (t n : Nat) :
    ∃ vs w, vs.length = n ∧
      processFrames devGeneral clock (List.replicate n (.ok ⟨tokenFrame, []⟩)) ⟨false, ⟨dev, buf, k', [], t⟩⟩ =
      .ret (⟨false, ⟨{ dev with tokens := dev.tokens ++ vs }, buf, k', [], t⟩⟩, w) := by
  induction n generalizing dev with
  | zero => exact ⟨[], [], rfl, by simp [processFrames]⟩
  | succ n ih =>
    obtain ⟨v, w1, h1⟩ := tokenFrame_step clock dev buf k' t
    obtain ⟨vs, w, hl, hw⟩ := ih { dev with tokens := dev.tokens ++ [v] }
    refine ⟨v :: vs, w1 ++ w, by simp [hl], ?_⟩
    rw [List.replicate_succ, processFrames, h1, Out.bind_ret, hw, Out.bind_ret]
    simp

/-- C93 fails: nothing bounds what the server keeps. Repeating a section of a certificate, or an identification token, makes it keep
more than any given amount. -/
theorem C93_fails (clock : Clock) (N : Nat) :
    (∃ s' w, processFrames devGeneral clock (List.replicate (N + 1) (.ok ⟨sectionFrame, []⟩)) (Srv.init ⟨0, []⟩) = .ret (s', w) ∧
      N < s'.ctx.certBuf.length) ∧
    (∃ s' w, processFrames devGeneral clock (List.replicate (N + 1) (.ok ⟨tokenFrame, []⟩)) (Srv.init ⟨0, []⟩) = .ret (s', w) ∧
      N < s'.ctx.dev.tokens.length) := by
  obtain ⟨w, h⟩ := sectionFrame_steps clock ⟨0, []⟩ [] 0 0 (N + 1)
  obtain ⟨vs, w', hl, h'⟩ := tokenFrame_steps clock ⟨0, []⟩ [] 0 0 (N + 1)
  refine ⟨⟨_, _, h, ?_⟩, ⟨_, _, h', ?_⟩⟩
  · simp
  · simp [hl]

/-- The hypotheses can be met: for this frame of ten bytes seven are sent, one is kept. -/
example (clock : Clock) : ∃ s' w, processFrame devGeneral clock (Srv.init ⟨0, []⟩) ⟨sectionFrame, []⟩ = .ret (s', w) ∧
    total w = 7 ∧ kept s' = 1 := ⟨_, _, sectionFrame_step clock ⟨0, []⟩ [] 0 0, rfl, rfl⟩

/-- A command with two answers. -/
example (clock : Clock) (c : Ctx DevGeneral) : ∃ cmd c' new, Received cmd ∧ Handles devGeneral clock cmd c c' new ∧ new.length = 2 := by
  have hr : Received _ := ⟨false, _, _, _, decode_fix (t := .gen .IdentifyDeviceLingoes) (n := 12) rfl (by simp) none false
    (body := [0, 0, 0, 1, 0, 0, 0, 2, 0, 0, 0, 3]) rfl (v := (1, 2, 3, ())) rfl⟩
  obtain ⟨c', new, h1, h2, _⟩ := handlePacket_emits devGeneral clock
    ⟨TypeId.id (.gen .IdentifyDeviceLingoes), none, .ptr (.gen .IdentifyDeviceLingoes) (1, 2, 3, ())⟩ c
  refine ⟨_, _, _, hr, ⟨h1, h2⟩, ?_⟩
  have := C64_identify hr ⟨h1, h2⟩ 1 2 3 rfl
  have := congrArg List.length this
  rw [List.length_map] at this
  rw [this]; rfl

end Props
