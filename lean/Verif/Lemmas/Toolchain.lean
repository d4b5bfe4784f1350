import Verif.Model.Toolchain
import Verif.Spec.Toolchain
import Verif.Props.Server
import Verif.Lemmas.Decode

/-! Lemmas about the decoder and the server of older Go releases. -/

namespace Ipod
open Go Spec

theorem tokenAllocated_iff (id : TokenID) : tokenAllocated id = true ↔ knownTokenID id := by
  obtain ⟨a, b⟩ := id
  have h : ∀ b : UInt8, tokenAllocated ⟨0, b⟩ = decide (b ∈ [(0x00 : UInt8), 0x01, 0x02, 0x03, 0x04, 0x05, 0x07, 0x08]) := by
    intro b
    have h : ∀ n : Fin 256, tokenAllocated ⟨0, UInt8.ofNat n.val⟩ =
        decide (UInt8.ofNat n.val ∈ [(0x00 : UInt8), 0x01, 0x02, 0x03, 0x04, 0x05, 0x07, 0x08]) := by decide +kernel
    have := h ⟨b.toNat, b.toNat_lt⟩
    simpa using this
  by_cases h0 : a = 0
  · subst h0
    rw [h]
    simp [knownTokenID]
  · simp [tokenAllocated, knownTokenID, h0]

theorem unmarshalToken_unknown {id : TokenID} (h : ¬ knownTokenID id) (data : Bytes) :
    unmarshalToken id data = .ret (.ok (.raw data)) := by
  exact (unmarshalToken_iff id data (.raw data)).2 ⟨h, rfl⟩

theorem unmarshalTokenT_new (id : TokenID) (data : Bytes) : unmarshalTokenT false id data = unmarshalToken id data := by
  rw [unmarshalTokenT]
  split
  · rfl
  · rename_i h
    rw [unmarshalToken_unknown (fun hk => h ((tokenAllocated_iff id).2 hk))]
    rfl

theorem unmarshalTokenT_old (id : TokenID) (data : Bytes) :
    unmarshalTokenT true id data = if knownTokenID id then unmarshalToken id data else .panic := by
  rw [unmarshalTokenT]
  by_cases h : knownTokenID id
  · rw [if_pos h, if_pos ((tokenAllocated_iff id).2 h)]
  · rw [if_neg h, if_neg (fun hk => h ((tokenAllocated_iff id).1 hk))]
    rfl

theorem unmarshalTokenValueT_new : unmarshalTokenValueT false = unmarshalTokenValue := by
  funext d
  simp only [unmarshalTokenValueT, unmarshalTokenValue, unmarshalTokenT_new]
  rfl

theorem unmarshalTokenValueT_unknown {tb : Bytes} {a b : UInt8} {body : Bytes} (h : tb = a :: b :: body)
    (hk : ¬ knownTokenID ⟨a, b⟩) : unmarshalTokenValueT true tb = .panic := by
  subst h
  simp only [unmarshalTokenValueT, binRead_2u8, unmarshalTokenT_old, if_neg hk, Out.bind_panic]

theorem unmarshalTokenValueT_known {tb : Bytes} (h : ∀ a b body, tb = a :: b :: body → knownTokenID ⟨a, b⟩) :
    unmarshalTokenValueT true tb = unmarshalTokenValue tb := by
  match tb with
  | [] => rfl
  | [_] => rfl
  | a :: b :: r =>
    simp only [unmarshalTokenValueT, unmarshalTokenValue, binRead_2u8, unmarshalTokenT_old, if_pos (h a b r rfl)]
    rfl

theorem tokenListT (n : Nat) (r : Bytes) :
    (UnknownComing n r → unmarshalList (unmarshalTokenValueT true) n r = .panic) ∧
    (¬ UnknownComing n r →
      unmarshalList (unmarshalTokenValueT true) n r = unmarshalList unmarshalTokenValue n r) := by
  induction n generalizing r with
  | zero => exact ⟨nofun, fun _ => rfl⟩
  | succ n ih =>
    cases r with
    | nil => exact ⟨nofun, fun _ => rfl⟩
    | cons len r =>
      simp only [unmarshalList]
      by_cases hu : ∃ a b body, r.take len.toNat = a :: b :: body ∧ ¬ knownTokenID ⟨a, b⟩
      · obtain ⟨a, b, body, h1, h2⟩ := hu
        rw [unmarshalTokenValueT_unknown h1 h2]
        exact ⟨fun _ => rfl, fun h => (h (.here h1 h2)).elim⟩
      · have hk : ∀ a b body, r.take len.toNat = a :: b :: body → knownTokenID ⟨a, b⟩ := fun a b body h =>
          Classical.byContradiction fun h2 => hu ⟨a, b, body, h, h2⟩
        rw [unmarshalTokenValueT_known hk]
        have ho := unmarshalTokenValue_ok (r.take len.toNat)
        obtain ⟨ih1, ih2⟩ := ih (r.drop len.toNat)
        cases hv : unmarshalTokenValue (r.take len.toNat) with
        | panic => exact ⟨fun _ => rfl, fun _ => rfl⟩
        | ret x =>
          cases x with
          | error e =>
            refine ⟨fun h => ?_, fun _ => rfl⟩
            cases h with
            | here h1 h2 => exact absurd (hk _ _ _ h1) h2
            | later h1 h2 =>
              obtain ⟨v, h3⟩ := ho.2 h1
              rw [hv] at h3
              cases h3
          | ok v =>
            simp only [Out.bind_ret]
            constructor
            · intro h
              cases h with
              | here h1 h2 => exact absurd (hk _ _ _ h1) h2
              | later h1 h2 => rw [ih1 h2]; rfl
            · intro h
              rw [ih2 fun h2 => h (.later (ho.1 ⟨v, hv⟩) h2)]

theorem decodePayloadT_new (t : TypeId) (r : Bytes) : decodePayloadT false t r = decodePayload t r := by
  have : t.unmarshalBinaryT false r = t.unmarshalBinary r := by
    cases t with
    | gen g =>
      cases g
      case SetFIDTokenValues =>
        simp only [TypeId.unmarshalBinaryT, TypeId.unmarshalBinary, unmarshalTokensT, unmarshalTokens,
          unmarshalTokenValueT_new]
        rfl
      all_goals rfl
    | _ => rfl
  rw [decodePayloadT, this, decodePayload]
  rfl

/-- The payloads on which the releases differ. -/
def BadBody (t : TypeId) (r : Bytes) : Prop :=
  t = .gen .SetFIDTokenValues ∧ ∃ n r', r = n :: r' ∧ UnknownComing (UInt8.toNat n) r'

theorem decodePayloadT_bad {t : TypeId} {r : Bytes} (h : BadBody t r) : decodePayloadT true t r = .panic := by
  obtain ⟨rfl, n, r', rfl, h⟩ := h
  simp only [decodePayloadT, TypeId.unmarshalBinaryT, unmarshalTokensT, (tokenListT _ _).1 h, mapVal, Out.bind_panic]

theorem decodePayloadT_good {t : TypeId} {r : Bytes} (h : ¬ BadBody t r) :
    decodePayloadT true t r = decodePayload t r := by
  have : t.unmarshalBinaryT true r = t.unmarshalBinary r := by
    cases t with
    | gen g =>
      cases g
      case SetFIDTokenValues =>
        cases r with
        | nil => rfl
        | cons n r' =>
          simp only [TypeId.unmarshalBinaryT, TypeId.unmarshalBinary, unmarshalTokensT, unmarshalTokens]
          rw [(tokenListT _ _).2 fun hu => h ⟨rfl, n, r', rfl, hu⟩]
      all_goals rfl
    | _ => rfl
  rw [decodePayloadT, this, decodePayload]
  rfl

theorem unmarshalCmdT_new : unmarshalCmdT false = unmarshalCmd := by
  funext m p
  simp only [unmarshalCmdT, unmarshalCmd, decodePayloadT_new]
  rfl

theorem i39 : TypeId.id (.gen .SetFIDTokenValues) = idOf 0x00 (0x39 : UInt8).toUInt16 := by decide +kernel

theorem unmarshalCmdT_unknown {m : Bool} {pkt : Bytes} (h : UnknownKind m pkt) : unmarshalCmdT true m pkt = .panic := by
  obtain ⟨trx, n, r, ht, rfl, hu⟩ := h
  have l2 : ∀ k d, registry.lookup TypeId.size (idOf 0x00 (0x39 : UInt8).toUInt16) k d =
      some (.gen .SetFIDTokenValues, d) := by intro k d; rw [← i39]; exact lookup_var rfl k d
  have m2 : handleCmdID m (idOf 0x00 (0x39 : UInt8).toUInt16) = m := by rw [← i39]; exact handleCmdID_var rfl m
  have he : unmarshalLingoCmdID ([0x00, 0x39] ++ trx ++ (n :: r)) =
      (.ok (idOf 0x00 (0x39 : UInt8).toUInt16), trx ++ (n :: r)) :=
    (unmarshalLingoCmdID_short (by decide)).2 (by simp)
  have hb : decodePayloadT true (.gen .SetFIDTokenValues) (n :: r) = .panic := decodePayloadT_bad ⟨rfl, n, r, rfl, hu⟩
  rw [unmarshalCmdT, he]
  simp only [l2, m2]
  cases m with
  | false =>
    simp only [Bool.false_eq_true, if_false, List.length_eq_zero_iff] at ht
    subst ht
    simp only [List.nil_append, hb, Out.bind_panic]
  | true =>
    match trx, ht with
    | [x, y], _ => simp only [List.cons_append, List.nil_append, binRead_u16_cons, hb, Out.bind_panic]

theorem unmarshalCmdT_other {m : Bool} {pkt : Bytes} (h : ¬ UnknownKind m pkt) :
    unmarshalCmdT true m pkt = unmarshalCmd m pkt := by
  rw [unmarshalCmdT, unmarshalCmd]
  rcases he : unmarshalLingoCmdID pkt with ⟨x, r⟩
  cases x with
  | error e => rfl
  | ok id =>
    simp only
    have fin : ∀ t b body trx, registry.lookup TypeId.size id r.length (handleCmdID m id) = some (t, b) →
        r = trx ++ body → trx.length = (if b then 2 else 0) → ¬ BadBody t body := by
      rintro t b body trx hl hr htl ⟨rfl, n, r', rfl, hu⟩
      have hid := lookup_found hl
      rw [i39] at hid
      subst hid
      rw [show handleCmdID m (idOf 0x00 (0x39 : UInt8).toUInt16) = m by rw [← i39]; exact handleCmdID_var rfl m,
        show registry.lookup TypeId.size (idOf 0x00 (0x39 : UInt8).toUInt16) r.length m =
          some (.gen .SetFIDTokenValues, m) by rw [← i39]; exact lookup_var rfl _ _] at hl
      simp only [Option.some.injEq, Prod.mk.injEq, true_and] at hl
      subst hl
      refine h ⟨trx, n, r', htl, ?_, hu⟩
      rw [(unmarshalLingoCmdID_short (by decide)).1 he, hr]
      simp
    cases hl : registry.lookup TypeId.size id r.length (handleCmdID m id) with
    | none => rfl
    | some x =>
      obtain ⟨t, b⟩ := x
      cases b with
      | false => simp only [decodePayloadT_good (fin t false r [] hl rfl rfl)]; rfl
      | true =>
        simp only
        match r, fin t true with
        | [], _ => simp [binRead_u16_nil]
        | [x], _ => simp [binRead_u16_one]
        | x :: y :: r', fin =>
          simp only [binRead_u16_cons, decodePayloadT_good (fin r' [x, y] hl rfl rfl)]; rfl

theorem unmarshalCmdT_panics (m : Bool) (pkt : Bytes) : unmarshalCmdT true m pkt = .panic ↔ OldFatal m pkt := by
  by_cases h : UnknownKind m pkt
  · simp [unmarshalCmdT_unknown h, OldFatal, h]
  · rw [unmarshalCmdT_other h, Props.malformed_iff, OldFatal]
    simp [h]

/-! ### frames -/

theorem readCommandsT_eq (old m : Bool) (frame : Slice) :
    readCommandsT old m frame =
      match readPacket frame with
      | .panic => .panic
      | .ret (rest, .error e) => if e = .eof then .ret (m, []) else readCommandsT old m rest
      | .ret (rest, .ok pkt) =>
        unmarshalCmdT old m pkt >>= fun x => readCommandsT old x.1 rest >>= fun y => .ret (y.1, x.2.1 :: y.2) := by
  rw [readCommandsT]
  split <;> rename_i h <;> rw [h]

/-- Decoding a list of packets. -/
def decodeAllT (old m : Bool) : List Bytes → Out (Bool × List Command)
  | [] => .ret (m, [])
  | p :: ps => unmarshalCmdT old m p >>= fun x => decodeAllT old x.1 ps >>= fun y => .ret (y.1, x.2.1 :: y.2)

theorem readCommandsT_scan (old : Bool) {spare d : Bytes} {ps : List Bytes} {b : Bool} (h : Scan spare d ps b) (m : Bool) :
    readCommandsT old m ⟨d, spare⟩ = decodeAllT old m ps >>= fun x => if b then .panic else .ret x := by
  induction h generalizing m with
  | done hf => rw [readCommandsT_eq, readPacket_filler _ spare hf]; rfl
  | crash hj ho => rw [readCommandsT_eq, readPacket_overrun hj ho]; rfl
  | @packet j w rest p ps b hj hw hs ih =>
    rw [readCommandsT_eq, readPacket_isPacket _ _ _ _ spare hj hw]
    simp only [decodeAllT]
    cases unmarshalCmdT old m p with
    | panic => rfl
    | ret x =>
      simp only [Out.bind_ret, ih]
      cases decodeAllT old x.1 ps with
      | panic => rfl
      | ret y => cases b <;> rfl
  | skip hj hp ho hs ih =>
    obtain ⟨e, he, r⟩ := readPacket_skip hj hp ho
    rw [readCommandsT_eq, r]
    simp only [if_neg he, ih]

theorem decodeAllT_new (m : Bool) (ps : List Bytes) : decodeAllT false m ps = decodeAll m ps := by
  induction ps generalizing m with
  | nil => rfl
  | cons p ps ih => simp only [decodeAllT, decodeAll, unmarshalCmdT_new, ih]

/-- What the older decoder gets through, the current one reads in the same way. -/
theorem decodeAllT_ret {m : Bool} {ps : List Bytes} {x : Bool × List Command} (h : decodeAllT true m ps = .ret x) :
    decodeAll m ps = .ret x := by
  induction ps generalizing m x with
  | nil => exact h
  | cons p ps ih =>
    simp only [decodeAllT] at h
    by_cases hk : UnknownKind m p
    · rw [unmarshalCmdT_unknown hk] at h; cases h
    · rw [unmarshalCmdT_other hk] at h
      simp only [decodeAll]
      cases hu : unmarshalCmd m p with
      | panic => rw [hu] at h; cases h
      | ret y =>
        rw [hu] at h
        simp only [Out.bind_ret] at h ⊢
        cases hd : decodeAllT true y.1 ps with
        | panic => rw [hd] at h; cases h
        | ret z => rw [hd] at h; rw [ih hd]; exact h

theorem decodeAllT_panic {m : Bool} {ps : List Bytes} :
    decodeAllT true m ps = .panic ↔
      ∃ ps1 p ps2, ps = ps1 ++ p :: ps2 ∧ OldFatal (modeAfter m (ps1.map .receive)) p := by
  have key : ∀ {m m' : Bool} {p : Bytes} {c : Command} {e : Option Err} (ps1 : List Bytes),
      unmarshalCmd m p = .ret (m', c, e) →
      modeAfter m ((p :: ps1).map .receive) = modeAfter m' (ps1.map .receive) := by
    intro m m' p c e ps1 h
    have h1 : m' = modeAfter m ([p].map .receive) := Props.decoded_mode (.cons h .nil)
    subst h1
    simp only [List.map_cons, List.map_nil, modeAfter, List.filterMap_cons, List.filterMap_nil]
    cases switchOf (.receive p) with
    | none => rfl
    | some b => simp [List.getLast?_cons]
  induction ps generalizing m with
  | nil => simp [decodeAllT]
  | cons p ps ih =>
    simp only [decodeAllT]
    cases hu : unmarshalCmdT true m p with
    | panic =>
      simp only [Out.bind_panic, true_iff]
      exact ⟨[], p, ps, rfl, (unmarshalCmdT_panics m p).1 hu⟩
    | ret x =>
      have hk : ¬ OldFatal m p := fun hf => by rw [(unmarshalCmdT_panics m p).2 hf] at hu; cases hu
      have hu' : unmarshalCmd m p = .ret x := by
        rw [unmarshalCmdT_other fun h => hk (.inr h)] at hu; exact hu
      simp only [Out.bind_ret]
      constructor
      · intro h
        cases hd : decodeAllT true x.1 ps with
        | ret y => rw [hd] at h; cases h
        | panic =>
          obtain ⟨ps1, q, ps2, rfl, h2⟩ := ih.1 hd
          exact ⟨p :: ps1, q, ps2, rfl, by rw [key ps1 hu']; exact h2⟩
      · rintro ⟨ps1, q, ps2, e, h2⟩
        cases ps1 with
        | nil => cases e; exact absurd h2 hk
        | cons p' ps1 =>
          cases e
          rw [key ps1 hu'] at h2
          rw [ih.2 ⟨_, _, _, rfl, h2⟩]; rfl

theorem processFrameT_new {σ : Type} (D : Device σ) (clock : Clock) (s : Srv σ) (f : Slice) :
    processFrameT false D clock s f = processFrame D clock s f := by
  obtain ⟨ps, b, hs⟩ := scan_total f.spare f.data
  have : readCommandsT false s.mode f = readCommands s.mode f := by
    rw [show f = ⟨f.data, f.spare⟩ from rfl, readCommandsT_scan false hs, readCommands_scan hs, decodeAllT_new]
  rw [processFrameT, this, processFrame]

theorem processFrameT_ret {σ : Type} {D : Device σ} {clock : Clock} {s : Srv σ} {f : Slice} {x : Srv σ × List Bytes}
    (h : processFrameT true D clock s f = .ret x) : processFrame D clock s f = .ret x := by
  obtain ⟨ps, b, hs⟩ := scan_total f.spare f.data
  rw [show f = ⟨f.data, f.spare⟩ from rfl] at h ⊢
  simp only [processFrameT, readCommandsT_scan true hs] at h
  simp only [processFrame, readCommands_scan hs]
  cases hd : decodeAllT true s.mode ps with
  | panic => rw [hd] at h; cases h
  | ret y => rw [hd] at h; rw [decodeAllT_ret hd]; exact h

theorem processFrameT_panic {σ : Type} {D : Device σ} {clock : Clock} (s : Srv σ) (f : Slice) :
    processFrameT true D clock s f = .panic ↔
      ∃ ps b, Scan f.spare f.data ps b ∧
        (b = true ∨ ∃ ps1 p ps2, ps = ps1 ++ p :: ps2 ∧ OldFatal (modeAfter s.mode (ps1.map .receive)) p) := by
  obtain ⟨ps, b, hs⟩ := scan_total f.spare f.data
  have h1 : processFrameT true D clock s ⟨f.data, f.spare⟩ = .panic ↔ b = true ∨ decodeAllT true s.mode ps = .panic := by
    simp only [processFrameT, readCommandsT_scan true hs]
    cases hd : decodeAllT true s.mode ps with
    | panic => simp
    | ret x =>
      simp only [Out.bind_ret]
      cases b with
      | true => simp
      | false =>
        obtain ⟨c, news, h1, _⟩ := handleAll_ret D clock x.2 { s.ctx with out := [] }
        simp [h1]
  rw [show f = ⟨f.data, f.spare⟩ from rfl, h1, decodeAllT_panic]
  constructor
  · intro h; exact ⟨ps, b, hs, h⟩
  · rintro ⟨ps', b', hs', h⟩
    obtain ⟨rfl, rfl⟩ := scan_unique hs hs'
    exact h

end Ipod
