import Verif.Lemmas.Emulator
import Verif.Lemmas.RealRegistry
import Verif.Lemmas.Grouping

/-! Packets, frames and sessions of the emulated iPod. -/

namespace Ipod
open Go Spec

/-! ### the number of a message -/

theorem unmarshalID_split (pkt : Bytes) :
    match splitID pkt with
    | none => ∃ e r, unmarshalLingoCmdID pkt = (.error e, r)
    | some (l, c, r) => unmarshalLingoCmdID pkt = (.ok (idOf l c), r) := by
  rw [unmarshalLingoCmdID_eq]
  match pkt with
  | [] => exact ⟨_, _, rfl⟩
  | [l] =>
    simp only [splitID]
    by_cases h : l = 0x04
    · rw [if_pos h]; exact ⟨_, _, rfl⟩
    · rw [if_neg h]; exact ⟨_, _, rfl⟩
  | [l, a] =>
    by_cases h : l = 0x04
    · subst h
      simp only [splitID, if_true]
      exact ⟨_, _, rfl⟩
    · simp only [splitID, if_neg h]
      rw [show UInt16.ofNat a.toNat = a.toUInt16 by simp]
  | l :: a :: b :: r =>
    by_cases h : l = 0x04
    · subst h
      simp only [splitID, if_true]
    · have e : splitID (l :: a :: b :: r) = some (l, UInt16.ofNat a.toNat, b :: r) := by
        unfold splitID
        split
        · rename_i heq; injection heq with h1 _; exact absurd h1 h
        · rename_i heq; injection heq with h1 h2; injection h2 with h2 h3; subst h1 h2 h3; rw [if_neg h]
        · rename_i h2; exact absurd rfl (h2 _ _ _)
      rw [e]
      simp only [if_neg h]
      rw [show UInt16.ofNat a.toNat = a.toUInt16 by simp]

theorem trxAfter_eq (m : Bool) (l : UInt8) (c : UInt16) : handleCmdID m (idOf l c) = trxAfter l c m := by
  have e : ∀ k : UInt16, idOf l c = idOf 0x00 k ↔ l = 0x00 ∧ c = k := fun k =>
    ⟨fun h => ⟨by simpa using congrArg LingoCmdID.lingoID h, by simpa using congrArg LingoCmdID.cmdID h⟩,
      fun ⟨h1, h2⟩ => by rw [h1, h2]⟩
  have e0 : (0x00 : UInt32) = idOf 0x00 0x00 := by decide +kernel
  have e1 : (0x13 : UInt32) = idOf 0x00 0x13 := by decide +kernel
  have e2 : (0x38 : UInt32) = idOf 0x00 0x38 := by decide +kernel
  rw [handleCmdID_eq, trxAfter, e0, e1, e2]
  simp only [e]
  by_cases hl : l = 0x00 <;> simp [hl]

/-! ### the messages with a number -/

theorem sizes_table : TypeId.all.map (fun t => (t.lingo, t.cmd, t.size)) =
    wireTable.map (fun r => (r.lingo, r.cmd, r.fields.map wireSize)) := by decide +kernel

theorem id_parts (t : TypeId) (l : UInt8) (c : UInt16) : t.id = idOf l c ↔ t.lingo = l ∧ t.cmd = c := id_eq_iff t l c

theorem filter_through {α β γ : Type} (f : α → β) (p : β → Bool) (g : β → γ) (l : List α) :
    ((l.map f).filter p).map g = (l.filter fun a => p (f a)).map fun a => g (f a) := by
  induction l with
  | nil => rfl
  | cons a l ih =>
    rw [List.map_cons, List.filter_cons, List.filter_cons]
    split <;> simp [ih]

theorem lengths_cands (l : UInt8) (c : UInt16) : (cands (idOf l c)).map TypeId.size = lengthsOf l c := by
  have h1 := filter_through (fun t : TypeId => (t.lingo, t.cmd, t.size)) (fun x => decide (x.1 = l ∧ x.2.1 = c)) (·.2.2) TypeId.all
  have h2 := filter_through (fun r : WireRow => (r.lingo, r.cmd, r.fields.map wireSize)) (fun x => decide (x.1 = l ∧ x.2.1 = c))
    (·.2.2) wireTable
  rw [sizes_table] at h1
  have e : cands (idOf l c) = TypeId.all.filter fun t => decide (t.lingo = l ∧ t.cmd = c) := by
    unfold cands
    congr 1
    funext t
    exact decide_eq_decide.2 (id_parts t l c)
  rw [e, lengthsOf, ← h2, h1]

/-! ### looking a message up -/

theorem lookupLoop_find (r : Bytes) (ts : List TypeId) :
    match lookupLoop TypeId.size r.length ts with
    | none => (ts.map TypeId.size).find? (fitsLength r) = none
    | some (t, b) => t ∈ ts ∧ (ts.map TypeId.size).find? (fitsLength r) = some t.size ∧
        (b = false ∧ t.size = some r.length ∨ b = true ∧ t.size.map (· + 2) = some r.length) := by
  induction ts with
  | nil => rfl
  | cons t ts ih =>
    rw [lookupLoop]
    cases hs : t.size with
    | none =>
      have hf : fitsLength r none = false := by simp [fitsLength]
      simp only [List.map_cons, hs, List.find?_cons, hf]
      cases hl : lookupLoop TypeId.size r.length ts with
      | none => rw [hl] at ih; exact ih
      | some x => rw [hl] at ih; exact ⟨.tail _ ih.1, ih.2⟩
    | some n =>
      simp only
      by_cases h1 : (n : Int) = (r.length : Nat)
      · rw [if_pos h1]
        have h1 : n = r.length := by omega
        subst h1
        have hf : fitsLength r (some r.length) = true := by simp [fitsLength]
        exact ⟨.head _, by simp only [List.map_cons, hs, List.find?_cons, hf], .inl ⟨rfl, hs⟩⟩
      · rw [if_neg h1]
        by_cases h2 : (n : Int) = (r.length : Nat) - 2
        · rw [if_pos h2]
          have h2 : n + 2 = r.length := by omega
          have hf : fitsLength r (some n) = true := by simp [fitsLength, h2]
          exact ⟨.head _, by simp only [List.map_cons, hs, List.find?_cons, hf], .inr ⟨rfl, by rw [hs]; exact congrArg some h2⟩⟩
        · rw [if_neg h2]
          have hf : fitsLength r (some n) = false := by simp [fitsLength]; omega
          simp only [List.map_cons, hs, List.find?_cons, hf]
          cases hl : lookupLoop TypeId.size r.length ts with
          | none => rw [hl] at ih; exact ih
          | some x => rw [hl] at ih; exact ⟨.tail _ ih.1, ih.2⟩

/-- What is heard if the message is `t`, with or without a transaction. -/
def heardAs (t : TypeId) (trx : Bool) (r : Bytes) : Hearing :=
  match (if trx then splitTrx r else some (none, r)) with
  | none => .garbled
  | some (tr, b) =>
    match cutBody t.size b with
    | none => .garbled
    | some b => .message tr b

theorem lookup_hear (on : Bool) (l : UInt8) (c : UInt16) (r : Bytes) :
    match registry.lookup TypeId.size (idOf l c) r.length on with
    | none => hear on (lengthsOf l c) r = .unknown
    | some (t, b) => t.lingo = l ∧ t.cmd = c ∧ hear on (lengthsOf l c) r = heardAs t b r := by
  rw [lookup_registry, ← lengths_cands]
  have h := lookupLoop_find r (cands (idOf l c))
  cases hl : lookupLoop TypeId.size r.length (cands (idOf l c)) with
  | some x =>
    obtain ⟨t, b⟩ := x
    rw [hl] at h
    obtain ⟨hm, hf, hb⟩ := h
    have hp := (id_parts t l c).1 (mem_cands.1 hm)
    refine ⟨hp.1, hp.2, ?_⟩
    simp only [hear, hf]
    rcases hb with ⟨rfl, hs⟩ | ⟨rfl, hs⟩
    · rw [if_pos hs]
      simp only [heardAs, hs, cutBody, Bool.false_eq_true, if_false, Nat.lt_irrefl, List.take_length]
    · cases hn : t.size with
      | none => rw [hn] at hs; cases hs
      | some n =>
        rw [hn] at hs
        have hs : n + 2 = r.length := Option.some.inj hs
        rw [if_neg (by simp; omega)]
        match r, hs with
        | a :: b :: r, hs =>
          have hs : n = r.length := by simp at hs; omega
          subst hs
          simp only [heardAs, hn, splitTrx, if_true, cutBody, Nat.lt_irrefl, if_false, List.take_length]
  | none =>
    rw [hl] at h
    match hc : cands (idOf l c) with
    | [] => rw [hc] at h; simp only [hear, h]; rfl
    | [t] =>
      rw [hc] at h
      have hp := (id_parts t l c).1 (mem_cands.1 (hc ▸ List.mem_singleton.2 rfl))
      refine ⟨hp.1, hp.2, ?_⟩
      simp only [hear, h]
      rfl
    | t :: u :: ts => rw [hc] at h; simp only [hear, h]; rfl

/-! ### one packet -/

/-- Decoding a packet and handling it does what the specification says. -/
def HearsAs (m : Bool) (c : Ctx DevGeneral) (clock : Clock) (packet : Bytes) (x : Option (Pod × List Say)) : Prop :=
  (unmarshalCmd m packet = .panic ∧ x = none) ∨
  ∃ m' cmd e, unmarshalCmd m packet = .ret (m', cmd, e) ∧ Matches m' c (handlePacket devGeneral clock cmd c) x

theorem nothing_handled (clock : Clock) (id : LingoCmdID) (trx : Option UInt16) (c : Ctx DevGeneral) :
    handlePacket devGeneral clock ⟨id, trx, .nil⟩ c = .ret c := by
  unfold handlePacket
  split
  · rfl
  split
  · rfl
  split
  · rfl
  split
  · rfl
  split <;> rfl

theorem unknown_handled (m : Bool) (clock : Clock) (l : UInt8) (k : UInt16) (r : Bytes) (c : Ctx DevGeneral) :
    Matches m c (handlePacket devGeneral clock ⟨idOf l k, none, .unknown r⟩ c)
      (some (podOf m c, if l = 0x00 then [⟨0x00, 0x02, none, some [0x05, UInt8.ofNat k.toNat]⟩] else [])) := by
  by_cases hl : l = 0x00
  · subst hl
    rw [handlePacket_general _ _ _ _ (by simp only [lingoID_idOf]), afterAudio, if_neg (by simp [authComplete]), if_pos rfl]
    simp only [handleGeneral, Ctx.ack, cmdID_idOf]
    refine matches_body (body := [0x05, k.toUInt8]) rfl ?_
    rw [show UInt8.ofNat k.toNat = k.toUInt8 by apply UInt8.toNat.inj; simp]
    rfl
  · rw [if_neg hl]
    refine matches_silent ?_ rfl
    unfold handlePacket
    simp only [lingoID_idOf]
    rw [if_neg (show ¬ l = lingoGeneralID from hl)]
    split
    · rfl
    split
    · rfl
    split
    · rfl
    split <;> rfl

theorem garbled_as {m m' : Bool} {c : Ctx DevGeneral} {clock : Clock} {packet : Bytes} {id : LingoCmdID} {trx : Option UInt16}
    {e : Option Err} (h : unmarshalCmd m packet = .ret (m', ⟨id, trx, .nil⟩, e)) :
    HearsAs m c clock packet (some (podOf m' c, [])) :=
  .inr ⟨m', _, e, h, matches_silent (nothing_handled ..) rfl⟩

theorem packet_heard (m : Bool) (c : Ctx DevGeneral) (clock : Clock) (packet : Bytes) :
    HearsAs m c clock packet ((podOf m c).hears clock packet) := by
  have hid := unmarshalID_split packet
  unfold Pod.hears
  match hs : splitID packet with
  | none =>
    rw [hs] at hid
    obtain ⟨e, r, hid⟩ := hid
    exact garbled_as (by unfold unmarshalCmd; rw [hid]; rfl)
  | some (l, k, r) =>
    rw [hs] at hid
    have hid : unmarshalLingoCmdID packet = (.ok (idOf l k), r) := hid
    have hpod : ({ podOf m c with trx := trxAfter l k (podOf m c).trx } : Pod) = podOf (trxAfter l k m) c := rfl
    simp only [hpod]
    have hu : unmarshalCmd m packet =
        (match registry.lookup TypeId.size (idOf l k) r.length (trxAfter l k m) with
        | none => .ret (trxAfter l k m, ⟨idOf l k, none, .unknown r⟩, some Err.unknownCmd)
        | some (t, false) =>
          decodePayload t r >>= fun p =>
          match p with
          | .error e => .ret (trxAfter l k m, ⟨idOf l k, none, .nil⟩, some e)
          | .ok v => .ret (trxAfter l k m, ⟨idOf l k, none, .ptr t v⟩, none)
        | some (t, true) =>
          match binRead [.u16] r with
          | (.error e, _) => .ret (trxAfter l k m, ⟨idOf l k, none, .nil⟩, some e)
          | (.ok (tr, _), r) =>
            decodePayload t r >>= fun p =>
            match p with
            | .error e => .ret (trxAfter l k m, ⟨idOf l k, some tr, .nil⟩, some e)
            | .ok v => .ret (trxAfter l k m, ⟨idOf l k, some tr, .ptr t v⟩, none)) := by
      unfold unmarshalCmd
      rw [hid]
      simp only [trxAfter_eq]
      rfl
    have hl := lookup_hear (trxAfter l k m) l k r
    have htrx : (podOf m c).trx = m := rfl
    have hlooks : (podOf m c).looks = c.ticks := rfl
    rw [htrx, hlooks]
    generalize hm : trxAfter l k m = m' at hu hl ⊢
    match hk : registry.lookup TypeId.size (idOf l k) r.length m' with
    | none =>
      rw [hk] at hl hu
      have hl : hear m' (lengthsOf l k) r = .unknown := hl
      rw [hl]
      exact .inr ⟨_, _, _, hu, unknown_handled ..⟩
    | some (t, b) =>
      rw [hk] at hl hu
      obtain ⟨h1, h2, hl⟩ := hl
      have hti : idOf l k = t.id := ((id_parts t l k).2 ⟨h1, h2⟩).symm
      subst h1 h2
      rw [hl]
      cases b with
      | false =>
        have hd := type_does t m' c clock none r
        simp only [heardAs, Bool.false_eq_true, if_false]
        simp only at hu
        have key : ∀ x, Does m' c clock none t r x → HearsAs m c clock packet x := by
          rintro x (⟨h, rfl⟩ | ⟨e, h, rfl⟩ | ⟨v, h, hx⟩)
          · exact .inl ⟨by rw [hu, h]; rfl, rfl⟩
          · exact garbled_as (by rw [hu, h]; rfl)
          · exact .inr ⟨m', _, none, by rw [hu, h]; rfl, hti ▸ hx⟩
        cases hb : cutBody t.size r with
        | none => rw [hb] at hd; exact key _ hd
        | some b => rw [hb] at hd; exact key _ hd
      | true =>
        simp only [heardAs, if_true]
        simp only at hu
        match r with
        | [] => exact garbled_as (by rw [hu, binRead_u16_nil])
        | [x] => exact garbled_as (by rw [hu, binRead_u16_one])
        | x :: y :: r =>
          rw [binRead_u16_cons] at hu
          simp only [splitTrx]
          have hd := type_does t m' c clock (some (UInt16.ofNat (x.toNat * 256 + y.toNat))) r
          have key : ∀ z, Does m' c clock (some (UInt16.ofNat (x.toNat * 256 + y.toNat))) t r z → HearsAs m c clock packet z := by
            rintro z (⟨h, rfl⟩ | ⟨e, h, rfl⟩ | ⟨v, h, hx⟩)
            · exact .inl ⟨by rw [hu]; simp only [h]; rfl, rfl⟩
            · exact garbled_as (by rw [hu]; simp only [h]; rfl)
            · exact .inr ⟨m', _, none, by rw [hu]; simp only [h]; rfl, hti ▸ hx⟩
          cases hb : cutBody t.size r with
          | none => rw [hb] at hd; exact key _ hd
          | some b => rw [hb] at hd; exact key _ hd

/-! ### one frame -/

theorem packets_heard (m : Bool) (c : Ctx DevGeneral) (clock : Clock) (ps : List Bytes) :
    (decodeAll m ps = .panic ∧ (podOf m c).hearsAll clock ps = none) ∨
    ∃ m' cmds, decodeAll m ps = .ret (m', cmds) ∧
      Matches m' c (handleAll devGeneral clock cmds c) ((podOf m c).hearsAll clock ps) := by
  induction ps generalizing m c with
  | nil => exact .inr ⟨m, [], rfl, matches_silent rfl rfl⟩
  | cons p ps ih =>
    rw [decodeAll, Pod.hearsAll]
    rcases packet_heard m c clock p with ⟨h1, h2⟩ | ⟨m1, cmd, e, h1, c1, new, h2, h3, h4⟩
    · rw [h1, h2]; exact .inl ⟨rfl, rfl⟩
    · rw [h1, h4]
      rcases ih m1 c1 with ⟨h5, h6⟩ | ⟨m2, cmds, h5, c2, new2, h6, h7, h8⟩
      · simp only [h6, Out.bind_ret, h5]
        exact .inl ⟨rfl, trivial⟩
      · simp only [Out.bind_ret, h5]
        refine .inr ⟨m2, cmd :: cmds, rfl, c2, new ++ new2, ?_, ?_, ?_⟩
        · rw [handleAll, h2]; exact h6
        · rw [h7, h3, List.append_assoc]
        · simp only [h8, List.map_append]

/-- What is to be known about the server. -/
def podS (s : Srv DevGeneral) : Pod := podOf s.mode s.ctx

theorem course_heard (clock : Clock) (s : Srv DevGeneral) (ps : List Bytes) :
    (course devGeneral clock s ps = .panic ∧ (podS s).hearsAll clock ps = none) ∨
    ∃ s' out, course devGeneral clock s ps = .ret (s', out) ∧
      (podS s).hearsAll clock ps = some (podS s', out.map sayOf) := by
  have he : podS s = podOf s.mode { s.ctx with out := [] } := rfl
  rw [he, course]
  rcases packets_heard s.mode { s.ctx with out := [] } clock ps with ⟨h1, h2⟩ | ⟨m', cmds, h1, c', new, h2, h3, h4⟩
  · rw [h1]; exact .inl ⟨rfl, h2⟩
  · rw [h1]
    simp only [Out.bind_ret, h2]
    refine .inr ⟨_, _, rfl, ?_⟩
    rw [h4, h3]
    rfl

theorem header_bytes (n : Nat) : writtenHeader n =
    if n > 256 then [0x00, UInt8.ofNat (n / 256), UInt8.ofNat n] else [UInt8.ofNat n] := by
  unfold writtenHeader
  have e1 : (UInt16.ofNat n >>> 8).toUInt8 = UInt8.ofNat (n / 256) := by
    apply UInt8.toNat.inj
    simp [UInt16.toNat_shiftRight, Nat.shiftRight_eq_div_pow]
    omega
  have e2 : (UInt16.ofNat n).toUInt8 = UInt8.ofNat n := by
    apply UInt8.toNat.inj
    simp
  rw [e1, e2]

theorem frame_bytes {p : Bytes} (hp : p ≠ []) : frameOf (.ok p) = frameBytes p := by
  have hc : ∀ b, checksum b = UInt8.ofNat (256 - byteSum b % 256) := fun b => by
    apply UInt8.toNat.inj
    rw [checksum_toNat]
    simp
  simp only [frameOf, newPacketWriter, writePacket_ne _ _ hp, frameBytes, header_bytes, hc, List.nil_append, List.cons_append]

theorem said_frame (m : Bool) (x : Command) (hx : switchOfId x.id = none) : frameIn m x = (sayOf x).frame m := by
  have hm : handleCmdID m x.id = m := by rw [Props.switch_eq, hx]; rfl
  unfold frameIn Say.frame Say.packet sayOf
  cases he : encodePayload x.payload with
  | error e =>
    have h : (marshalCmd m x).2 = .error e := by rw [marshalCmd_eq, he]
    rw [h]; rfl
  | ok b =>
    have h : (marshalCmd m x).2 = .ok (idBytes (LingoCmdID.lingoID x.id) (LingoCmdID.cmdID x.id) ++
        (if m then transactionBytes x.trx else []) ++ b) := by
      rw [marshalCmd_eq, he, hm, Props.trxBytes_eq]
      cases m <;> rfl
    rw [h, frame_bytes (Props.marshal_ne_nil h)]
    rfl

theorem frame_heard (clock : Clock) (s : Srv DevGeneral) (f : Slice) {ps : List Bytes} (h : Scan f.spare f.data ps false) :
    (processFrame devGeneral clock s f = .panic ∧ (podS s).hearsAll clock ps = none) ∨
    ∃ s' ss, processFrame devGeneral clock s f = .ret (s', ss.map (Say.frame s'.mode)) ∧
      (podS s).hearsAll clock ps = some (podS s', ss) := by
  have hp := processFrame_course devGeneral clock s h
  rcases course_heard clock s ps with ⟨h1, h2⟩ | ⟨s', out, h1, h2⟩
  · exact .inl ⟨by rw [h1] at hp; exact hp, h2⟩
  · refine .inr ⟨s', out.map sayOf, ?_, h2⟩
    rw [h1] at hp
    have hn := course_no_switch h1
    refine hp.trans ?_
    simp only [Out.bind_ret, List.map_map]
    refine congrArg (fun w => Out.ret (s', w)) (List.map_congr_left fun x hx => ?_)
    exact said_frame _ _ (hn x hx)

/-! ### a session -/

theorem lives_of_ret (clock : Clock) (reads : List (Except Err Slice)) (s s' : Srv DevGeneral) (w : List Bytes)
    (h : processFrames devGeneral clock reads s = .ret (s', w)) : Lives clock (podS s) reads (podS s') w := by
  induction reads generalizing s w with
  | nil => cases h; exact .done
  | cons r reads ih =>
    match r with
    | .error e =>
      by_cases he : e = .eof
      · subst he; cases h; exact .stops
      · have h' : processFrames devGeneral clock (.error e :: reads) s = processFrames devGeneral clock reads s := by
          cases e <;> first | rfl | exact absurd rfl he
        rw [h'] at h
        exact .error he (ih s w h)
    | .ok f =>
      rw [processFrames] at h
      obtain ⟨ps, b, hs⟩ := scan_total f.spare f.data
      cases b with
      | true => rw [(processFrame_panic hs).2 (.inl rfl)] at h; cases h
      | false =>
        rcases frame_heard clock s f hs with ⟨h1, h2⟩ | ⟨s1, ss, h1, h2⟩
        · rw [h1] at h; cases h
        · rw [h1] at h
          simp only [Out.bind_ret] at h
          cases hr : processFrames devGeneral clock reads s1 with
          | panic => rw [hr] at h; cases h
          | ret y =>
            rw [hr] at h
            simp only [Out.bind_ret, Out.ret.injEq, Prod.mk.injEq] at h
            obtain ⟨rfl, rfl⟩ := h
            exact .frame hs h2 (ih s1 y.2 hr)

theorem dies_of_panic (clock : Clock) (reads : List (Except Err Slice)) (s : Srv DevGeneral)
    (h : processFrames devGeneral clock reads s = .panic) : Dies clock (podS s) reads := by
  induction reads generalizing s with
  | nil => cases h
  | cons r reads ih =>
    match r with
    | .error e =>
      by_cases he : e = .eof
      · subst he; cases h
      · have h' : processFrames devGeneral clock (.error e :: reads) s = processFrames devGeneral clock reads s := by
          cases e <;> first | rfl | exact absurd rfl he
        rw [h'] at h
        exact .error he (ih s h)
    | .ok f =>
      rw [processFrames] at h
      obtain ⟨ps, b, hs⟩ := scan_total f.spare f.data
      cases b with
      | true => exact .overrun hs
      | false =>
        rcases frame_heard clock s f hs with ⟨h1, h2⟩ | ⟨s1, ss, h1, h2⟩
        · exact .packet hs h2
        · rw [h1] at h
          simp only [Out.bind_ret] at h
          cases hr : processFrames devGeneral clock reads s1 with
          | panic => exact .later hs h2 (ih s1 hr)
          | ret y => rw [hr] at h; cases h

/-- A session has one outcome only. -/
theorem lives_unique {clock : Clock} {p p1 p2 : Pod} {reads : List (Except Err Slice)} {w1 w2 : List Bytes}
    (h1 : Lives clock p reads p1 w1) (h2 : Lives clock p reads p2 w2) : p1 = p2 ∧ w1 = w2 := by
  induction h1 generalizing p2 w2 with
  | done => cases h2; exact ⟨rfl, rfl⟩
  | stops => cases h2 with
    | stops => exact ⟨rfl, rfl⟩
    | error he _ => exact absurd rfl he
  | error he _ ih => cases h2 with
    | stops => exact absurd rfl he
    | error _ h2 => exact ih h2
  | frame hs hh _ ih => cases h2 with
    | frame hs' hh' h2 =>
      obtain ⟨rfl, _⟩ := scan_unique hs hs'
      rw [hh] at hh'
      cases hh'
      obtain ⟨rfl, rfl⟩ := ih h2
      exact ⟨rfl, rfl⟩

theorem not_lives_dies {clock : Clock} {p p1 : Pod} {reads : List (Except Err Slice)} {w : List Bytes}
    (h1 : Lives clock p reads p1 w) (h2 : Dies clock p reads) : False := by
  induction h1 with
  | done => cases h2
  | stops => cases h2 with
    | error he _ => exact he rfl
  | error he _ ih => cases h2 with
    | error _ h2 => exact ih h2
  | frame hs hh _ ih => cases h2 with
    | overrun hs' => cases (scan_unique hs hs').2
    | packet hs' hh' =>
      obtain ⟨rfl, _⟩ := scan_unique hs hs'
      rw [hh] at hh'
      cases hh'
    | later hs' hh' h2 =>
      obtain ⟨rfl, _⟩ := scan_unique hs hs'
      rw [hh] at hh'
      cases hh'
      exact ih h2

end Ipod
