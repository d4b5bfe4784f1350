import Verif.Lemmas.Serde

/-! Where decoding panics. -/

namespace Ipod
open Go

theorem index_eq (b : Bytes) (i : Nat) : index b i = if h : i < b.length then .ret b[i] else .panic := by
  rw [index]
  by_cases h : i < b.length
  · rw [dif_pos h, List.getElem?_eq_getElem h]
  · rw [dif_neg h, List.getElem?_eq_none (by omega)]

theorem unmarshalAppLaunch_eq (data : Bytes) :
    unmarshalAppLaunch data =
      match data with
      | a :: b :: c :: s => .ret (a, b, c, s, ())
      | _ => .panic := by
  match data with
  | [] => rfl
  | [_] => rfl
  | [_, _] => rfl
  | a :: b :: c :: s => simp [unmarshalAppLaunch, index, dropOrPanic]

/-- `tokenRead` accepts exactly bodies that are long enough. -/
theorem tokenRead_eq {fs : List FTy} {n : Nat} (h : structSize fs = some n) (d : Bytes) (f : SVal fs → FIDToken) :
    tokenRead fs d f ≠ .panic ∧ ((∃ t, tokenRead fs d f = .ret (.ok t)) ↔ n ≤ d.length) := by
  by_cases hd : n ≤ d.length
  · obtain ⟨v, hv, _⟩ := binRead_long h hd
    simp [tokenRead, hv, hd]
  · have := binRead_short h (r := d) (by omega)
    simp [tokenRead, this, hd]

theorem unmarshalAccInfo_ok (data : Bytes) :
    (∃ t, unmarshalAccInfo data = .ok t) ↔
      ∃ k r, data = k :: r ∧ k ∈ [(0x01 : UInt8), 0x04, 0x05, 0x06, 0x07, 0x08, 0x09, 0x0b, 0x0c] := by
  cases data with
  | nil =>
    have : unmarshalAccInfo [] = .error Err.unknownInfo := by decide +kernel
    simp [this]
  | cons k r =>
    simp only [unmarshalAccInfo, readOrZero_u8_cons]
    split
    · rename_i h; constructor
      · intro _; exact ⟨k, r, rfl, by rcases h with h | h | h | h <;> simp [h]⟩
      · intro _; exact ⟨_, rfl⟩
    · split
      · rename_i h; constructor
        · intro _; exact ⟨k, r, rfl, by rcases h with h | h <;> simp [h]⟩
        · intro _; exact ⟨_, rfl⟩
      · split
        · rename_i h; constructor
          · intro _; exact ⟨k, r, rfl, by simp [h]⟩
          · intro _; exact ⟨_, rfl⟩
        · split
          · rename_i h; constructor
            · intro _; exact ⟨k, r, rfl, by rcases h with h | h <;> simp [h]⟩
            · intro _; exact ⟨_, rfl⟩
          · rename_i h1 h2 h3 h4
            simp only [reduceCtorEq, exists_false, false_iff, not_exists, not_and]
            rintro k' r' he hm
            simp only [List.cons.injEq] at he
            obtain ⟨rfl, rfl⟩ := he
            simp only [List.mem_cons, List.not_mem_nil, or_false] at hm
            simp only [not_or] at h1 h2 h4
            rcases hm with h | h | h | h | h | h | h | h | h <;> simp_all

theorem unmarshalToken_cases (ty sub : UInt8) (body : Bytes) :
    (unmarshalToken ⟨ty, sub⟩ body = .panic ↔ ty = 0x00 ∧ sub = 0x04 ∧ body = []) ∧
    ((∃ t, unmarshalToken ⟨ty, sub⟩ body = .ret (.ok t)) ↔ Spec.TokenBodyOK ty sub body) := by
  have sub_eq : ∀ k : Nat, k < 256 → (sub = UInt8.ofNat k ↔ sub.toNat = k) := by
    intro k hk
    constructor
    · rintro rfl; simp; omega
    · intro h; rw [← h]; simp
  have s4 := sub_eq 4 (by omega)
  rw [show UInt8.ofNat 4 = 4 from rfl] at s4
  simp only [unmarshalToken, Spec.TokenBodyOK]
  by_cases h0 : ty = 0
  · simp only [h0, if_true, true_and]
    rw [s4]
    split
    · rename_i h
      simp only [h]
      refine ⟨by simp, ?_⟩
      cases body with
      | nil => simp [unmarshalIdentify]
      | cons n r => simp [unmarshalIdentify]
    · rename_i h; simp [h]
    · rename_i h
      simp only [h]
      refine ⟨by simp, ?_⟩
      simp only [Out.ret.injEq]
      exact unmarshalAccInfo_ok body
    · rename_i h
      have := tokenRead_eq (fs := [.u8, .u8, .u8]) (n := 3) rfl body
        fun (a, b, c, _) => FIDToken.ipodPref a b c
      simp only [h]
      exact ⟨by simp [this.1], this.2⟩
    · rename_i h
      simp only [h]
      cases body with
      | nil => simp [index]
      | cons x xs => simp [index, dropOrPanic]
    · rename_i h
      have := tokenRead_eq (fs := [.arr 11]) (n := 11) rfl body fun (s, _) => FIDToken.bundleSeed s
      simp only [h]
      exact ⟨by simp [this.1], this.2⟩
    · rename_i h
      have := tokenRead_eq (fs := screenInfoSchema) (n := 14) rfl body
        fun (a, b, c, d, e, f, g, h, _) => FIDToken.screenInfo a b c d e f g h
      simp only [h]
      exact ⟨by simp [this.1], this.2⟩
    · rename_i h
      have := tokenRead_eq (fs := [.u8, .u8]) (n := 2) rfl body fun (a, b, _) => FIDToken.eaMetadata a b
      simp only [h]
      exact ⟨by simp [this.1], this.2⟩
    · rename_i h1 h2 h3 h4 h5 h6 h7 h8
      refine ⟨?_, by simp⟩
      constructor
      · intro h; simp at h
      · intro h; exact (h5 h.1).elim
  · simp only [h0, if_false, false_and]
    by_cases h1 : ty = 1
    · simp only [h1, if_true]
      have := tokenRead_eq (fs := [.u32]) (n := 4) rfl body fun (m, _) => FIDToken.micCaps m
      exact ⟨by simp [this.1], this.2⟩
    · simp [h1]

theorem unmarshalTokenValue_panic (tb : Bytes) : unmarshalTokenValue tb = .panic ↔ tb = [0x00, 0x04] := by
  match tb with
  | [] => simp [unmarshalTokenValue, binRead_short (fs := [.u8, .u8]) (n := 2) rfl (r := [])]
  | [x] => simp [unmarshalTokenValue, binRead_short (fs := [.u8, .u8]) (n := 2) rfl (r := [x])]
  | a :: b :: r =>
    have := (unmarshalToken_cases a b r).1
    simp only [unmarshalTokenValue, binRead_2u8]
    cases h : unmarshalToken ⟨a, b⟩ r with
    | panic => simp [this.1 h]
    | ret x =>
      have hn : ¬ (a = 0 ∧ b = 4 ∧ r = []) := by rw [← this, h]; simp
      simp only [Out.bind_ret, List.cons.injEq]
      constructor
      · cases x <;> simp
      · intro h'; exact absurd ⟨h'.1, h'.2.1, h'.2.2⟩ hn

theorem unmarshalTokenValue_ok (tb : Bytes) :
    (∃ v, unmarshalTokenValue tb = .ret (.ok v)) ↔ Spec.TokenAccepted tb := by
  match tb with
  | [] => simp [unmarshalTokenValue, binRead_short (fs := [.u8, .u8]) (n := 2) rfl (r := []), Spec.TokenAccepted]
  | [x] => simp [unmarshalTokenValue, binRead_short (fs := [.u8, .u8]) (n := 2) rfl (r := [x]), Spec.TokenAccepted]
  | a :: b :: r =>
    have := (unmarshalToken_cases a b r).2
    have he : Spec.TokenAccepted (a :: b :: r) ↔ Spec.TokenBodyOK a b r := by
      constructor
      · rintro ⟨a', b', r', h1, h2⟩
        simp only [List.cons.injEq] at h1
        obtain ⟨rfl, rfl, rfl⟩ := h1
        exact h2
      · intro h; exact ⟨a, b, r, rfl, h⟩
    rw [he, ← this]
    simp only [unmarshalTokenValue, binRead_2u8]
    cases h : unmarshalToken ⟨a, b⟩ r with
    | panic => simp
    | ret x => cases x <;> simp

theorem unmarshalTokenList_panic (n : Nat) (r : Bytes) :
    unmarshalList unmarshalTokenValue n r = .panic ↔ Spec.BareEAToken n r := by
  induction n generalizing r with
  | zero => simp [unmarshalList]; intro h; cases h
  | succ n ih =>
    cases r with
    | nil => simp [unmarshalList]; intro h; cases h
    | cons len r =>
      rw [unmarshalList]
      have hp := unmarshalTokenValue_panic (r.take len.toNat)
      have ho := unmarshalTokenValue_ok (r.take len.toNat)
      cases h : unmarshalTokenValue (r.take len.toNat) with
      | panic =>
        simp only [Out.bind_panic, true_iff]
        exact .here (hp.1 h)
      | ret x =>
        have hne : r.take len.toNat ≠ [0, 4] := by rw [ne_eq, ← hp, h]; simp
        cases x with
        | error e =>
          simp only [Out.bind_ret, reduceCtorEq, false_iff]
          intro hb
          cases hb with
          | here h' => exact hne h'
          | later h1 h2 =>
            obtain ⟨v, hv⟩ := ho.2 h1
            rw [h] at hv
            simp at hv
        | ok v =>
          simp only [Out.bind_ret]
          have hrec := ih (r.drop len.toNat)
          constructor
          · intro hp
            refine .later (ho.1 ⟨v, h⟩) (hrec.1 ?_)
            cases h2 : unmarshalList unmarshalTokenValue n (r.drop len.toNat) with
            | panic => rfl
            | ret y => rw [h2] at hp; cases y <;> simp at hp
          · intro hb
            cases hb with
            | here h' => exact absurd h' hne
            | later h1 h2 => rw [hrec.2 h2]; rfl

theorem ackList_no_panic (n : Nat) (r : Bytes) : unmarshalList unmarshalAck n r ≠ .panic := by
  induction n generalizing r with
  | zero => simp [unmarshalList]
  | succ n ih =>
    cases r with
    | nil => simp [unmarshalList]
    | cons len r =>
      rw [unmarshalList]
      have : ∃ x, unmarshalAck (r.take len.toNat) = .ret x := by
        rw [unmarshalAck]; split <;> exact ⟨_, rfl⟩
      obtain ⟨x, hx⟩ := this
      rw [hx]
      cases x with
      | error e => simp
      | ok v =>
        simp only [Out.bind_ret]
        have := ih (r.drop len.toNat)
        cases h : unmarshalList unmarshalAck n (r.drop len.toNat) with
        | panic => exact absurd h this
        | ret y => cases y <;> simp

/-- The only panicking payload decoders. -/
theorem decodePayload_panic (t : TypeId) (r : Bytes) :
    decodePayload t r = .panic ↔
      (t = .gen .RequestApplicationLaunch ∧ r.length < 3) ∨
      (t = .gen .SetFIDTokenValues ∧ ∃ n r', r = n :: r' ∧ Spec.BareEAToken n.toNat r') := by
  have hnone : ∀ t : TypeId, t.unmarshalBinary r = none → decodePayload t r ≠ .panic := by
    intro t h; simp [decodePayload, h]
  have hret : ∀ (t : TypeId) x, t.unmarshalBinary r = some (.ret x) → decodePayload t r ≠ .panic := by
    intro t x h; simp [decodePayload, h]
  by_cases h1 : t = .gen .RequestApplicationLaunch
  · subst h1
    simp only [decodePayload, TypeId.unmarshalBinary, unmarshalAppLaunch_eq]
    match r with
    | [] => simp
    | [_] => simp
    | [_, _] => simp
    | a :: b :: c :: s => simp
  by_cases h2 : t = .gen .SetFIDTokenValues
  · subst h2
    simp only [decodePayload, TypeId.unmarshalBinary, mapVal]
    cases r with
    | nil => simp [unmarshalTokens]
    | cons n r' =>
      rw [unmarshalTokens]
      have := unmarshalTokenList_panic n.toNat r'
      cases h : unmarshalList unmarshalTokenValue n.toNat r' with
      | panic =>
        simp only [Out.bind_panic, true_iff]
        exact .inr ⟨trivial, n, r', rfl, this.1 h⟩
      | ret x =>
        have hn : ¬ Spec.BareEAToken n.toNat r' := by rw [← this, h]; simp
        constructor
        · cases x <;> simp
        · rintro (⟨h, _⟩ | ⟨_, n', r'', he, hb⟩)
          · simp at h
          · simp only [List.cons.injEq] at he
            obtain ⟨rfl, rfl⟩ := he
            exact absurd hb hn
  by_cases h3 : t = .gen .RetFIDTokenValueACKs
  · subst h3
    simp only [decodePayload, TypeId.unmarshalBinary, mapVal]
    cases r with
    | nil => simp [unmarshalAcks]
    | cons n r' =>
      rw [unmarshalAcks]
      have := ackList_no_panic n.toNat r'
      cases h : unmarshalList unmarshalAck n.toNat r' with
      | panic => exact absurd h this
      | ret x => cases x <;> simp
  have : decodePayload t r ≠ .panic := by
    have mv : ∀ {α β : Type} (f : α → β) (x : Except Err α), ∃ y, mapVal f (.ret x) = some (.ret y) := by
      intro α β f x; cases x <;> exact ⟨_, rfl⟩
    have hh : t.unmarshalBinary r = none ∨ ∃ x, t.unmarshalBinary r = some (.ret x) := by
      cases t with
      | gen g => cases g <;> first | exact .inl rfl | exact .inr ⟨_, rfl⟩ | contradiction
      | ext g => cases g <;> first | exact .inl rfl | exact .inr ⟨_, rfl⟩ | exact .inr (mv _ _)
      | disp g => cases g <;> first | exact .inl rfl | exact .inr ⟨_, rfl⟩ | exact .inr (mv _ _)
      | aud g => cases g <;> first | exact .inl rfl | exact .inr ⟨_, rfl⟩ | exact .inr (mv _ _)
      | sim g => cases g <;> first | exact .inl rfl | exact .inr ⟨_, rfl⟩ | exact .inr (mv _ _)
    rcases hh with h | ⟨x, h⟩
    · exact hnone t h
    · exact hret t x h
  simp [this, h1, h2]

/-- `unmarshalCmd` in terms of the parts of the packet. -/
theorem unmarshalCmd_eq (m : Bool) (pkt : Bytes) :
    unmarshalCmd m pkt =
      match unmarshalLingoCmdID pkt with
      | (.error e, _) => .ret (m, Command.zero, some e)
      | (.ok id, r) =>
        match registry.lookup TypeId.size id r.length (handleCmdID m id) with
        | none => .ret (handleCmdID m id, ⟨id, none, .unknown r⟩, some Err.unknownCmd)
        | some (t, false) =>
          decodePayload t r >>= fun p =>
          match p with
          | .error e => .ret (handleCmdID m id, ⟨id, none, .nil⟩, some e)
          | .ok v => .ret (handleCmdID m id, ⟨id, none, .ptr t v⟩, none)
        | some (t, true) =>
          match r with
          | x :: y :: r' =>
            decodePayload t r' >>= fun p =>
            match p with
            | .error e => .ret (handleCmdID m id, ⟨id, some (UInt16.ofNat (x.toNat * 256 + y.toNat)), .nil⟩, some e)
            | .ok v => .ret (handleCmdID m id, ⟨id, some (UInt16.ofNat (x.toNat * 256 + y.toNat)), .ptr t v⟩, none)
          | [_] => .ret (handleCmdID m id, ⟨id, none, .nil⟩, some .unexpectedEOF)
          | [] => .ret (handleCmdID m id, ⟨id, none, .nil⟩, some .eof) := by
  rw [unmarshalCmd]
  rcases unmarshalLingoCmdID pkt with ⟨x, r⟩
  cases x with
  | error e => rfl
  | ok id =>
    simp only
    cases registry.lookup TypeId.size id r.length (handleCmdID m id) with
    | none => rfl
    | some x =>
      obtain ⟨t, b⟩ := x
      cases b with
      | false => rfl
      | true =>
        simp only
        match r with
        | [] => simp [binRead_u16_nil]
        | [x] => simp [binRead_u16_one]
        | x :: y :: r' =>
          simp only [binRead_u16_cons]
          rfl

theorem id_eq_iff (t : TypeId) (l : UInt8) (c : UInt16) : t.id = Spec.idOf l c ↔ t.lingo = l ∧ t.cmd = c :=
  ⟨idOf_inj, fun ⟨h1, h2⟩ => by rw [TypeId.id, h1, h2]⟩

/-- Only the packets of a one-byte command lingo, command `c`, give id `idOf l c`. -/
theorem unmarshalLingoCmdID_short {pkt r : Bytes} {l : UInt8} {c : UInt8} (hl : l ≠ 0x04) :
    unmarshalLingoCmdID pkt = (.ok (Spec.idOf l c.toUInt16), r) ↔ pkt = l :: c :: r := by
  rw [unmarshalLingoCmdID_eq]
  constructor
  · intro h
    split at h
    · simp at h
    · rename_i l' r'
      split at h
      · rename_i h4
        split at h <;> simp at h
        obtain ⟨h, rfl⟩ := h
        have := (idOf_inj h).1
        exact absurd (this ▸ h4) hl
      · split at h <;> simp at h
        obtain ⟨h, rfl⟩ := h
        obtain ⟨rfl, h2⟩ := idOf_inj h
        have : (UInt8.toUInt16 ‹UInt8›).toNat = c.toUInt16.toNat := by rw [h2]
        simp only [UInt8.toNat_toUInt16] at this
        rw [UInt8.toNat_inj.1 this]
  · rintro rfl
    simp [hl]

end Ipod
