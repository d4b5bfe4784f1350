import Verif.Lemmas.ErrText
import Verif.Lemmas.RealRegistry
import Verif.Props.Registry
import Verif.Props.Text

/-! C103: what the errors of the command codec say. -/

namespace Props
open Go Spec Ipod

/-- A packet either ends within its id or begins with one. -/
theorem id_split (p : Bytes) :
    (∃ e r s, unmarshalLingoCmdID p = (.error e, r) ∧ plainText e = s ∧ IdFails p s) ∨
    ∃ l c r, (l = 0x04 ∨ UInt16.toNat c < 256) ∧ p = idBytes l c ++ r ∧ unmarshalLingoCmdID p = (.ok (idOf l c), r) := by
  have heof := plainText_io.eof
  have hun := plainText_io.unexpected
  match p with
  | [] => exact .inl ⟨.eof, [], _, rfl, heof, .short (by decide)⟩
  | [l] =>
    refine .inl ⟨.eof, [], _, ?_, heof, .short (by simp)⟩
    rw [unmarshalLingoCmdID_eq]
    simp
  | [l, x] =>
    by_cases h : l = 0x04
    · subst h
      refine .inl ⟨.unexpectedEOF, [], _, ?_, hun, .wide⟩
      rw [unmarshalLingoCmdID_eq]; simp
    · have hx := x.toNat_lt
      refine .inr ⟨l, x.toUInt16, [], .inr (by simpa using hx), ?_, ?_⟩
      · simp only [idBytes]
        rw [if_neg h]
        simp
      · rw [unmarshalLingoCmdID_eq]; simp [h]
  | l :: x :: y :: r =>
    have hx := x.toNat_lt
    by_cases h : l = 0x04
    · subst h
      have hy := y.toNat_lt
      have hc : (UInt16.ofNat (x.toNat * 256 + y.toNat)).toNat = x.toNat * 256 + y.toNat := by
        rw [UInt16.toNat_ofNat', Nat.mod_eq_of_lt (by omega)]
      refine .inr ⟨0x04, UInt16.ofNat (x.toNat * 256 + y.toNat), r, .inl rfl, ?_, ?_⟩
      · simp only [idBytes, hc]
        rw [show (x.toNat * 256 + y.toNat) / 256 = x.toNat by omega, show (x.toNat * 256 + y.toNat) % 256 = y.toNat by omega]
        simp
      · rw [unmarshalLingoCmdID_eq]; simp
    · refine .inr ⟨l, x.toUInt16, y :: r, .inr (by simpa using hx), ?_, ?_⟩
      · simp only [idBytes]
        rw [if_neg h]
        simp
      · rw [unmarshalLingoCmdID_eq]; simp [h]

theorem idFails_not_id {l : UInt8} {c : UInt16} {r s : Bytes} : ¬ IdFails (idBytes l c ++ r) s := by
  intro h
  generalize hp : idBytes l c ++ r = p at h
  simp only [idBytes] at hp
  split at hp
  · cases h with
    | short h => rw [← hp] at h; simp at h; omega
    | wide => simp at hp
  · cases h with
    | short h => rw [← hp] at h; simp at h; omega
    | wide => simp only [List.cons_append, List.nil_append, List.cons.injEq] at hp; exact absurd hp.1 (by assumption)

theorem idFails_text {p s s' : Bytes} (h : IdFails p s) (h' : IdFails p s') : s = s' := by
  cases h <;> cases h'
  · rfl
  · rename_i h; simp at h
  · rename_i h; simp at h
  · rfl

theorem idBytes_inj {l l' : UInt8} {c c' : UInt16} {r r' : Bytes} (hf : l = 0x04 ∨ c.toNat < 256)
    (hf' : l' = 0x04 ∨ c'.toNat < 256) (h : idBytes l c ++ r = idBytes l' c' ++ r') : l = l' ∧ c = c' ∧ r = r' := by
  have h1 := unmarshalLingoCmdID_idBytes l c hf r
  rw [h, unmarshalLingoCmdID_idBytes l' c' hf' r'] at h1
  simp only [Prod.mk.injEq, Except.ok.injEq] at h1
  obtain ⟨e1, e2⟩ := h1
  obtain ⟨rfl, rfl⟩ := idOf_inj e1
  exact ⟨rfl, rfl, e2.symm⟩

theorem handleCmdID_modeFor (m : Bool) (l : UInt8) (c : UInt16) : handleCmdID m (idOf l c) = modeFor m l c := by
  have hz : ∀ k : UInt16, (idOf l c = idOf 0x00 k ↔ l = 0x00 ∧ c = k) := by
    intro k
    constructor
    · exact idOf_inj
    · rintro ⟨rfl, rfl⟩; rfl
  have h0 := hz 0x00
  have h1 := hz 0x13
  have h2 := hz 0x38
  rw [show idOf 0x00 0x00 = 0x00 by decide +kernel] at h0
  rw [show idOf 0x00 0x13 = 0x13 by decide +kernel] at h1
  rw [show idOf 0x00 0x38 = 0x38 by decide +kernel] at h2
  rw [handleCmdID_eq, modeFor]
  by_cases a : l = 0x00 <;> by_cases b : c = 0x00 <;> by_cases d : c = 0x13 <;> by_cases e : c = 0x38 <;>
    simp_all

theorem lookup_found_iff (id : UInt32) (n : Nat) (d : Bool) (t : TypeId) (b : Bool) :
    registry.lookup TypeId.size id n d = some (t, b) ↔
      Found TypeId.size n d (candidates (registrations registryCalls) id) t b := by
  rw [C13_lookup_found, mapGet_registry, registrations_eq, candidates_eq]
  by_cases h : cands id = []
  · rw [if_pos h, h]; rfl
  · rw [if_neg h]; rfl

theorem short_trx {lib : BinTexts} {regs : List (UInt32 × TypeId)} {mode : Bool} {l : UInt8} {c : UInt16} {r : Bytes} {t : TypeId}
    {e : Err} {x : Bytes} (hf : l = 0x04 ∨ c.toNat < 256)
    (huniq : ∀ t' b', Found TypeId.size r.length (modeFor mode l c) (candidates regs (idOf l c)) t' b' ↔ t = t' ∧ true = b')
    (hr : r.length < 2) (he : plainText e = if r.length = 0 then ascii "EOF" else ascii "unexpected EOF") :
    (Out.ret (some (plainText e)) = .ret (some x)) ↔ PacketFails lib regs mode (idBytes l c ++ r) x := by
  simp only [Out.ret.injEq, Option.some.injEq]
  constructor
  · rintro rfl
    exact .transaction hf ((huniq _ _).2 ⟨rfl, rfl⟩) ((tooFew_iff _ _ _).2 ⟨hr, he⟩)
  · intro h
    generalize hp : idBytes l c ++ r = p at h
    cases h with
    | id h => subst hp; exact absurd h idFails_not_id
    | unknown hf' _ h =>
      obtain ⟨rfl, rfl, rfl⟩ := idBytes_inj hf hf' hp
      exact absurd ((huniq _ _).2 ⟨rfl, rfl⟩) (h t true)
    | body hf' h h2 =>
      obtain ⟨rfl, rfl, rfl⟩ := idBytes_inj hf hf' hp
      exact absurd ((huniq _ _).1 h).2 (by decide)
    | transaction hf' h h2 =>
      obtain ⟨rfl, rfl, rfl⟩ := idBytes_inj hf hf' hp
      rw [he, ((tooFew_iff _ _ _).1 h2).2]
    | bodyBehind hf' h h2 =>
      obtain ⟨rfl, rfl, hr'⟩ := idBytes_inj hf hf' hp
      rw [hr'] at hr; simp at hr; omega

/-- C103. The error of a packet says exactly what went wrong: which part of the packet is missing, the id nothing is
registered for, or the reason for which the body is refused; with the step that failed in front (except for a missing
transaction). -/
theorem C103_texts (lib : BinTexts) (mode : Bool) (pkt x : Bytes) :
    unmarshalText lib mode pkt = .ret (some x) ↔ PacketFails lib (registrations registryCalls) mode pkt x := by
  rcases id_split pkt with ⟨e, r, s, he, hs, hi⟩ | ⟨l, c, r, hf, rfl, hu⟩
  · rw [unmarshalText, he]
    simp only [Out.ret.injEq, Option.some.injEq, hs]
    constructor
    · rintro rfl; exact .id hi
    · intro h
      cases h with
      | id h => rw [idFails_text hi h]
      | unknown => exact absurd hi idFails_not_id
      | body => exact absurd hi idFails_not_id
      | transaction => exact absurd hi idFails_not_id
      | bodyBehind => exact absurd hi idFails_not_id
  · rw [unmarshalText, hu]
    simp only [handleCmdID_modeFor]
    have hfound := fun t b => lookup_found_iff (idOf l c) r.length (modeFor mode l c) t b
    cases hl : registry.lookup TypeId.size (idOf l c) r.length (modeFor mode l c) with
    | none =>
      rw [hl] at hfound
      have hnone : ∀ t b, ¬ Found TypeId.size r.length (modeFor mode l c)
          (candidates (registrations registryCalls) (idOf l c)) t b := by
        intro t b h; have := (hfound t b).2 h; cases this
      simp only [Out.ret.injEq, Option.some.injEq]
      constructor
      · rintro rfl
        exact .unknown hf (C71_id_text l c).2 hnone
      · intro h
        generalize hp : idBytes l c ++ r = p at h
        cases h with
        | id h => subst hp; exact absurd h idFails_not_id
        | unknown hf' hs _ =>
          obtain ⟨rfl, rfl, rfl⟩ := idBytes_inj hf hf' hp
          rw [idText_unique (C71_id_text l c).2 hs]
        | body hf' h _ =>
          obtain ⟨rfl, rfl, rfl⟩ := idBytes_inj hf hf' hp
          exact absurd h (hnone _ _)
        | transaction hf' h _ =>
          obtain ⟨rfl, rfl, rfl⟩ := idBytes_inj hf hf' hp
          exact absurd h (hnone _ _)
        | bodyBehind hf' h _ =>
          obtain ⟨rfl, rfl, rfl⟩ := idBytes_inj hf hf' hp
          exact absurd h (hnone _ _)
    | some tb =>
      obtain ⟨t, b⟩ := tb
      rw [hl] at hfound
      have huniq : ∀ t' b', Found TypeId.size r.length (modeFor mode l c)
          (candidates (registrations registryCalls) (idOf l c)) t' b' ↔ t = t' ∧ b = b' := by
        intro t' b'
        rw [← hfound]; simp
      cases b with
      | false =>
        simp only
        rw [bodyText_iff]
        constructor
        · intro h; exact .body hf ((huniq _ _).2 ⟨rfl, rfl⟩) h
        · intro h
          generalize hp : idBytes l c ++ r = p at h
          cases h with
          | id h => subst hp; exact absurd h idFails_not_id
          | unknown hf' _ h =>
            obtain ⟨rfl, rfl, rfl⟩ := idBytes_inj hf hf' hp
            exact absurd ((huniq _ _).2 ⟨rfl, rfl⟩) (h t false)
          | body hf' h h2 =>
            obtain ⟨rfl, rfl, rfl⟩ := idBytes_inj hf hf' hp
            obtain ⟨rfl, _⟩ := (huniq _ _).1 h
            exact h2
          | transaction hf' h _ =>
            obtain ⟨rfl, rfl, rfl⟩ := idBytes_inj hf hf' hp
            exact absurd ((huniq _ _).1 h).2 (by decide)
          | bodyBehind hf' h _ =>
            obtain ⟨rfl, rfl, rfl⟩ := idBytes_inj hf hf' hp
            exact absurd ((huniq _ _).1 h).2 (by decide)
      | true =>
        simp only
        match r with
        | a :: b :: r =>
          rw [binRead_u16_cons]
          simp only
          rw [bodyText_iff]
          constructor
          · intro h; exact .bodyBehind hf ((huniq _ _).2 ⟨rfl, rfl⟩) h
          · intro h
            generalize hp : idBytes l c ++ a :: b :: r = p at h
            cases h with
            | id h => subst hp; exact absurd h idFails_not_id
            | unknown hf' _ h =>
              obtain ⟨rfl, rfl, rfl⟩ := idBytes_inj hf hf' hp
              exact absurd ((huniq _ _).2 ⟨rfl, rfl⟩) (h t true)
            | body hf' h h2 =>
              obtain ⟨rfl, rfl, rfl⟩ := idBytes_inj hf hf' hp
              exact absurd ((huniq _ _).1 h).2 (by decide)
            | transaction hf' h h2 =>
              obtain ⟨rfl, rfl, rfl⟩ := idBytes_inj hf hf' hp
              rw [tooFew_iff] at h2
              simp at h2; omega
            | bodyBehind hf' h h2 =>
              obtain ⟨rfl, rfl, hr⟩ := idBytes_inj hf hf' hp
              simp only [List.cons.injEq] at hr
              obtain ⟨_, _, rfl⟩ := hr
              obtain ⟨rfl, _⟩ := (huniq _ _).1 h
              exact h2
        | [] =>
          rw [binRead_u16_nil]
          exact short_trx hf huniq (by decide) (by rw [plainText_io.eof]; rfl)
        | [a] =>
          rw [binRead_u16_one]
          exact short_trx hf huniq (by simp) (by rw [plainText_io.unexpected]; simp)

/-- C103. There is a text exactly when decoding the packet gives an error; and it never depends on the library which. -/
theorem C103_agrees (lib : BinTexts) (mode : Bool) (pkt : Bytes) :
    (unmarshalCmd mode pkt = .panic ↔ unmarshalText lib mode pkt = .panic) ∧
    ((∃ m cmd, unmarshalCmd mode pkt = .ret (m, cmd, none)) ↔ unmarshalText lib mode pkt = .ret none) ∧
    ((∃ m cmd e, unmarshalCmd mode pkt = .ret (m, cmd, some e)) ↔ ∃ x, unmarshalText lib mode pkt = .ret (some x)) := by
  have body : ∀ (t : TypeId) (d : Bytes) (m : Bool) (id : UInt32) (tr : Option UInt16),
      ((decodePayload t d >>= fun p => match p with
        | .error e => .ret (m, ⟨id, tr, .nil⟩, some e)
        | .ok v => .ret (m, ⟨id, tr, .ptr t v⟩, none) : Out (Bool × Command × Option Err)) = .panic ↔ bodyText lib t d = .panic) ∧
      ((∃ m' cmd, (decodePayload t d >>= fun p => match p with
        | .error e => .ret (m, ⟨id, tr, .nil⟩, some e)
        | .ok v => .ret (m, ⟨id, tr, .ptr t v⟩, none) : Out (Bool × Command × Option Err)) = .ret (m', cmd, none)) ↔
          bodyText lib t d = .ret none) ∧
      ((∃ m' cmd e, (decodePayload t d >>= fun p => match p with
        | .error e => .ret (m, ⟨id, tr, .nil⟩, some e)
        | .ok v => .ret (m, ⟨id, tr, .ptr t v⟩, none) : Out (Bool × Command × Option Err)) = .ret (m', cmd, some e)) ↔
          ∃ x, bodyText lib t d = .ret (some x)) := by
    intro t d m id tr
    obtain ⟨h1, h2⟩ := bodyText_decode lib t d
    cases hd : decodePayload t d with
    | panic =>
      have := h1.1 hd
      simp [this]
    | ret v =>
      cases v with
      | ok v =>
        have := h2.1 ⟨v, hd⟩
        simp [this]
      | error e =>
        rw [hd] at h1 h2
        simp only [reduceCtorEq, false_iff, Out.ret.injEq, exists_false] at h1 h2
        cases hb : bodyText lib t d with
        | panic => exact absurd hb h1
        | ret y =>
          cases y with
          | none => exact absurd hb h2
          | some y => simp
  rw [unmarshalCmd, unmarshalText]
  rcases id_split pkt with ⟨e, r, s, he, hs, hi⟩ | ⟨l, c, r, hf, rfl, hu⟩
  · rw [he]; simp
  · rw [hu]
    simp only
    cases registry.lookup TypeId.size (idOf l c) r.length (handleCmdID mode (idOf l c)) with
    | none => simp
    | some tb =>
      obtain ⟨t, b⟩ := tb
      cases b with
      | false => exact body t r _ _ _
      | true =>
        simp only
        match r with
        | a :: b :: r => rw [binRead_u16_cons]; exact body t r _ _ _
        | [] => rw [binRead_u16_nil]; simp
        | [a] => rw [binRead_u16_one]; simp

theorem not_prefix_of {a b s t : Bytes} (k : Nat) (h1 : k ≤ a.length) (h2 : k ≤ b.length) (h : a.take k ≠ b.take k) :
    a ++ s ≠ b ++ t := by
  intro he
  apply h
  have := congrArg (List.take k) he
  rwa [List.take_append_of_le_length h1, List.take_append_of_le_length h2] at this

theorem prefix_long {a s b : Bytes} (h : b.length < a.length) : a ++ s ≠ b := by
  intro he
  have := congrArg List.length he
  simp at this; omega

theorem tooFew_short {n : Nat} {r x : Bytes} (h : TooFew n r x) : x.length ≤ 14 := by
  have h1 : (ascii "EOF").length = 3 := by decide +kernel
  have h2 : (ascii "unexpected EOF").length = 14 := by decide +kernel
  cases h <;> omega

/-- C103. Every such error says that it is about decoding a command, but one: when the two bytes of the transaction are
missing the error is the bare one of the read. -/
theorem C103_bare_iff (lib : BinTexts) (mode : Bool) (pkt x : Bytes) (h : unmarshalText lib mode pkt = .ret (some x)) :
    (¬ ∃ s, x = ascii "ipod.Command unmarshal: " ++ s) ↔
      ∃ l c r t, (l = 0x04 ∨ UInt16.toNat c < 256) ∧ pkt = idBytes l c ++ r ∧ r.length < 2 ∧
        Found TypeId.size r.length (modeFor mode l c) (candidates (registrations registryCalls) (idOf l c)) t true := by
  have hp := (C103_texts lib mode pkt x).1 h
  have e1 : ascii "ipod.Command unmarshal: BinaryUnmarshaler: " = ascii "ipod.Command unmarshal: " ++ ascii "BinaryUnmarshaler: " := by
    decide +kernel
  have e2 : ascii "ipod.Command unmarshal: binary.Read: " = ascii "ipod.Command unmarshal: " ++ ascii "binary.Read: " := by
    decide +kernel
  have e3 : ascii "ipod.Command unmarshal: unknown cmd " = ascii "ipod.Command unmarshal: " ++ ascii "unknown cmd " := by
    decide +kernel
  have e4 : (ascii "ipod.Command unmarshal: ").length = 24 := by decide +kernel
  have hbody : ∀ {t : TypeId} {b x : Bytes}, BodyFails lib t b x → ∃ s, x = ascii "ipod.Command unmarshal: " ++ s := by
    intro t b x h
    cases h with
    | own => rw [e1, List.append_assoc]; exact ⟨_, rfl⟩
    | short => rw [e2, List.append_assoc]; exact ⟨_, rfl⟩
    | unsized => rw [e2, List.append_assoc]; exact ⟨_, rfl⟩
  constructor
  · intro hn
    cases hp with
    | id _ => exact absurd ⟨_, rfl⟩ hn
    | unknown _ _ _ => rw [e3, List.append_assoc] at hn; exact absurd ⟨_, rfl⟩ hn
    | body _ _ hb => exact absurd (hbody hb) hn
    | transaction hf hfd ht => exact ⟨_, _, _, _, hf, rfl, ((tooFew_iff _ _ _).1 ht).1, hfd⟩
    | bodyBehind _ _ hb => exact absurd (hbody hb) hn
  · rintro ⟨l, c, r, t, hf, rfl, hr, hfd⟩ ⟨s, rfl⟩
    have h2 := (C103_texts lib mode (idBytes l c ++ r) _).2 (.transaction hf hfd ((tooFew_iff 2 r _).2 ⟨hr, rfl⟩))
    rw [h] at h2
    simp only [Out.ret.injEq, Option.some.injEq] at h2
    refine prefix_long ?_ h2
    rw [e4]
    split
    · decide +kernel
    · decide +kernel

/-- C103. An error about an unknown command names it: packets with different ids get different texts. -/
theorem C103_unknown_id (lib : BinTexts) (mode mode' : Bool) (l l' : UInt8) (c c' : UInt16) (r r' s : Bytes)
    (hf : l = 0x04 ∨ c.toNat < 256) (hf' : l' = 0x04 ∨ c'.toNat < 256)
    (h : unmarshalText lib mode (idBytes l c ++ r) = .ret (some (ascii "ipod.Command unmarshal: unknown cmd " ++ s)))
    (h' : unmarshalText lib mode' (idBytes l' c' ++ r') = .ret (some (ascii "ipod.Command unmarshal: unknown cmd " ++ s))) :
    l = l' ∧ c = c' := by
  have key : ∀ (mode : Bool) (l : UInt8) (c : UInt16) (r : Bytes), (l = 0x04 ∨ c.toNat < 256) →
      unmarshalText lib mode (idBytes l c ++ r) = .ret (some (ascii "ipod.Command unmarshal: unknown cmd " ++ s)) →
      IdText "" "," "" l c s := by
    intro mode l c r hf h
    have hp := (C103_texts lib mode _ _).1 h
    generalize hx : ascii "ipod.Command unmarshal: unknown cmd " ++ s = x at hp
    generalize hq : idBytes l c ++ r = q at hp
    have nb : ∀ {t : TypeId} {b : Bytes}, ¬ BodyFails lib t b x := by
      intro t b hb
      cases hb with
      | own => exact not_prefix_of 27 (by decide +kernel) (by decide +kernel) (by decide +kernel) hx
      | short => exact not_prefix_of 27 (by decide +kernel) (by decide +kernel) (by decide +kernel) hx
      | unsized => exact not_prefix_of 27 (by decide +kernel) (by decide +kernel) (by decide +kernel) hx
    cases hp with
    | id h => subst hq; exact absurd h idFails_not_id
    | unknown hf'' ht _ =>
      obtain ⟨rfl, rfl, rfl⟩ := idBytes_inj hf hf'' hq
      have := List.append_cancel_left hx
      rw [this]; exact ht
    | body _ _ hb => exact absurd hb nb
    | transaction _ _ ht =>
      have := tooFew_short ht
      have e : (ascii "ipod.Command unmarshal: unknown cmd ").length = 36 := by decide +kernel
      exact absurd hx (prefix_long (by omega))
    | bodyBehind _ _ hb => exact absurd hb nb
  have h1 := key mode l c r hf h
  have h2 := key mode' l' c' r' hf' h'
  apply (C71_id_distinct l l' c c').2
  rw [idText_unique (C71_id_text l c).2 h1, idText_unique (C71_id_text l' c').2 h2]

/-! ### Sending -/

theorem marshalList_fails {α : Type} {enc : α → Except Err Bytes} {P : α → Prop} {e : Err}
    (h1 : ∀ v, P v → enc v = .error e) (h2 : ∀ v, ¬ P v → ∃ b, enc v = .ok b) (l : List α) :
    ((∃ v ∈ l, P v) → marshalList enc l = .error e) ∧ ((¬ ∃ v ∈ l, P v) → ∃ b, marshalList enc l = .ok b) := by
  induction l with
  | nil => exact ⟨by simp, fun _ => ⟨[], rfl⟩⟩
  | cons v vs ih =>
    by_cases hv : P v
    · have : ∃ w ∈ v :: vs, P w := ⟨v, by simp, hv⟩
      exact ⟨fun _ => by rw [marshalList, h1 v hv], fun h => absurd this h⟩
    · obtain ⟨b, hb⟩ := h2 v hv
      have e : (∃ w ∈ v :: vs, P w) ↔ ∃ w ∈ vs, P w := by
        constructor
        · rintro ⟨w, hw, hp⟩
          rcases List.mem_cons.1 hw with rfl | hw
          · exact absurd hp hv
          · exact ⟨w, hw, hp⟩
        · rintro ⟨w, hw, hp⟩; exact ⟨w, by simp [hw], hp⟩
      rw [e]
      constructor
      · intro h; rw [marshalList, hb, ih.1 h]
      · intro h
        obtain ⟨b', hb'⟩ := ih.2 h
        rw [marshalList, hb, hb']; exact ⟨_, rfl⟩

theorem tokenValue_fails (v : FIDTokenValue) :
    (Unwritable v.token → marshalTokenValue v = .error Err.unknownToken) ∧
    (¬ Unwritable v.token → ∃ b, marshalTokenValue v = .ok b) := by
  obtain ⟨id, t⟩ := v
  constructor
  · intro h; cases h <;> rfl
  · intro h
    cases t
    case nil => exact absurd .nil h
    case accInfo => exact absurd .accInfo h
    case eaProtocol => exact absurd .eaProtocol h
    all_goals exact ⟨_, rfl⟩

theorem ack_fails (v : FIDTokenValueACK) :
    (v.ack = none → marshalAck v = .error Err.unknownAck) ∧ (¬ v.ack = none → ∃ b, marshalAck v = .ok b) := by
  obtain ⟨id, a⟩ := v
  cases a with
  | none => exact ⟨fun _ => rfl, fun h => absurd rfl h⟩
  | some b => exact ⟨fun h => (by cases h), fun _ => ⟨_, rfl⟩⟩

theorem marshalBinary_own (t : TypeId) (v : t.Val) : (t.marshalBinary v).isSome = true ↔ t ∈ ownEncoder := by
  cases t with
  | gen t => cases t <;> simp [TypeId.marshalBinary, ownEncoder]
  | ext t => cases t <;> simp [TypeId.marshalBinary, ownEncoder]
  | disp t => cases t <;> simp [TypeId.marshalBinary, ownEncoder]
  | aud t => cases t <;> simp [TypeId.marshalBinary, ownEncoder]
  | sim t => cases t <;> simp [TypeId.marshalBinary, ownEncoder]

theorem extInfo_ok (ty : UInt8) (i : ExtInfo) : ∃ b, marshalExtInfo ty i = .ok b := by
  cases i <;> exact ⟨_, rfl⟩

/-- The own encoders fail only for tokens and acknowledgements. -/
theorem marshalBinary_fails (t : TypeId) (v : t.Val) (e : Err) (h : t.marshalBinary v = some (.error e)) :
    (∃ w, (⟨t, v⟩ : Sigma TypeId.Val) = ⟨.gen .SetFIDTokenValues, w⟩) ∨
    (∃ w, (⟨t, v⟩ : Sigma TypeId.Val) = ⟨.gen .RetFIDTokenValueACKs, w⟩) := by
  cases t with
  | gen t =>
    cases t
    case SetFIDTokenValues => exact .inl ⟨v, rfl⟩
    case RetFIDTokenValueACKs => exact .inr ⟨v, rfl⟩
    all_goals simp [TypeId.marshalBinary] at h
  | ext t =>
    cases t
    case ReturnIndexedPlayingTrackInfo =>
      obtain ⟨b, hb⟩ := extInfo_ok v.1 v.2.1
      simp [TypeId.marshalBinary, hb] at h
    all_goals simp [TypeId.marshalBinary] at h
  | disp t => cases t <;> simp [TypeId.marshalBinary] at h
  | aud t => cases t <;> simp [TypeId.marshalBinary] at h
  | sim t => cases t <;> simp [TypeId.marshalBinary] at h

/-- C103. The error of sending a message says exactly why it cannot be sent: there is no message, it holds a token or an
acknowledgement that cannot be written, or its type has neither a fixed size nor an encoder. -/
theorem C103_send_texts (lib : BinTexts) (cmd : Command) (x : Bytes) :
    marshalText lib cmd = some x ↔ SendFails lib cmd.payload x := by
  obtain ⟨id, trx, p⟩ := cmd
  rw [marshalText]
  cases p with
  | nil =>
    simp only [Option.some.injEq]
    exact ⟨fun h => h ▸ .nil, fun h => by cases h; rfl⟩
  | unknown b =>
    simp only [reduceCtorEq, false_iff]
    intro h; cases h
  | ptr t v =>
    simp only
    have hown := marshalBinary_own t v
    cases hm : t.marshalBinary v with
    | none =>
      rw [hm] at hown
      have hout : t ∉ ownEncoder := fun h => absurd (hown.2 h) (by simp)
      simp only
      cases hs : structSize t.schema with
      | none =>
        have hns : ∀ n, ¬ FixedSize t.schema n := by
          intro n hn
          rw [← structSize_iff, hs] at hn
          cases hn
        have hw : binWrite t.schema v = .error Err.invalidType := by rw [binWrite, hs]
        rw [hw]
        simp only [Option.some.injEq]
        constructor
        · rintro rfl; exact .unsized hout hns
        · intro h
          cases h with
          | tokens => exact absurd (by decide) hout
          | acks => exact absurd (by decide) hout
          | unsized => rfl
      | some n =>
        have hfix := (structSize_iff _ _).1 hs
        have hw : ∃ b, binWrite t.schema v = .ok b := by rw [binWrite, hs]; exact ⟨_, rfl⟩
        obtain ⟨b, hw⟩ := hw
        rw [hw]
        simp only [reduceCtorEq, false_iff]
        intro h
        cases h with
        | tokens => exact absurd (by decide) hout
        | acks => exact absurd (by decide) hout
        | unsized _ h => exact h n hfix
    | some y =>
      rw [hm] at hown
      have hin : t ∈ ownEncoder := hown.1 rfl
      have htok : ∀ w : TypeId.Val (.gen .SetFIDTokenValues),
          ((∃ tv ∈ w.1, Unwritable (FIDTokenValue.token tv)) → marshalTokens w.1 = .error Err.unknownToken) ∧
          ((¬ ∃ tv ∈ w.1, Unwritable (FIDTokenValue.token tv)) → ∃ b, marshalTokens w.1 = .ok b) := by
        intro w
        obtain ⟨h1, h2⟩ := marshalList_fails (fun v => (tokenValue_fails v).1) (fun v => (tokenValue_fails v).2) w.1
        refine ⟨fun h => by rw [marshalTokens, h1 h], fun h => ?_⟩
        obtain ⟨b, hb⟩ := h2 h
        rw [marshalTokens, hb]; exact ⟨_, rfl⟩
      have hack : ∀ w : TypeId.Val (.gen .RetFIDTokenValueACKs),
          ((∃ a ∈ w.1, FIDTokenValueACK.ack a = none) → marshalAcks w.1 = .error Err.unknownAck) ∧
          ((¬ ∃ a ∈ w.1, FIDTokenValueACK.ack a = none) → ∃ b, marshalAcks w.1 = .ok b) := by
        intro w
        obtain ⟨h1, h2⟩ := marshalList_fails (fun v => (ack_fails v).1) (fun v => (ack_fails v).2) w.1
        refine ⟨fun h => by rw [marshalAcks, h1 h], fun h => ?_⟩
        obtain ⟨b, hb⟩ := h2 h
        rw [marshalAcks, hb]; exact ⟨_, rfl⟩
      have etok : ascii "ipod.Command marshal: BinaryMarshaler: " ++ plainText Err.unknownToken =
          ascii "ipod.Command marshal: BinaryMarshaler: unknown token" := by decide +kernel
      have eack : ascii "ipod.Command marshal: BinaryMarshaler: " ++ plainText Err.unknownAck =
          ascii "ipod.Command marshal: BinaryMarshaler: unknown ack" := by decide +kernel
      cases y with
      | ok b =>
        simp only [reduceCtorEq, false_iff]
        intro h
        cases h with
        | @tokens v h =>
          have : TypeId.marshalBinary (.gen .SetFIDTokenValues) v = some (marshalTokens v.1) := rfl
          rw [this, (htok v).1 h] at hm; simp at hm
        | @acks v h =>
          have : TypeId.marshalBinary (.gen .RetFIDTokenValueACKs) v = some (marshalAcks v.1) := rfl
          rw [this, (hack v).1 h] at hm; simp at hm
        | unsized h => exact h hin
      | error e =>
        simp only [Option.some.injEq]
        rcases marshalBinary_fails t v e hm with ⟨w, hw⟩ | ⟨w, hw⟩
        · cases hw
          have hmm : TypeId.marshalBinary (.gen .SetFIDTokenValues) w = some (marshalTokens w.1) := rfl
          rw [hmm, Option.some.injEq] at hm
          by_cases hu : ∃ tv ∈ w.1, Unwritable (FIDTokenValue.token tv)
          · rw [(htok w).1 hu] at hm
            cases hm
            rw [etok]
            constructor
            · rintro rfl; exact .tokens hu
            · intro h
              cases h with
              | tokens => rfl
              | unsized h => exact absurd hin h
          · obtain ⟨b, hb⟩ := (htok w).2 hu
            rw [hb] at hm; cases hm
        · cases hw
          have hmm : TypeId.marshalBinary (.gen .RetFIDTokenValueACKs) w = some (marshalAcks w.1) := rfl
          rw [hmm, Option.some.injEq] at hm
          by_cases hu : ∃ a ∈ w.1, FIDTokenValueACK.ack a = none
          · rw [(hack w).1 hu] at hm
            cases hm
            rw [eack]
            constructor
            · rintro rfl; exact .acks hu
            · intro h
              cases h with
              | acks => rfl
              | unsized h => exact absurd hin h
          · obtain ⟨b, hb⟩ := (hack w).2 hu
            rw [hb] at hm; cases hm

/-- C103. There is a text exactly when sending fails. -/
theorem C103_send_agrees (lib : BinTexts) (mode : Bool) (cmd : Command) :
    (∃ e, (marshalCmd mode cmd).2 = .error e) ↔ ∃ x, marshalText lib cmd = some x := by
  obtain ⟨id, trx, p⟩ := cmd
  rw [marshalCmd, marshalText]
  cases p with
  | nil => simp [encodePayload]
  | unknown b => simp [encodePayload]
  | ptr t v =>
    simp only [encodePayload]
    cases t.marshalBinary v with
    | some y => cases y <;> simp
    | none => cases binWrite t.schema v <;> simp

/-! ### Examples -/

/-- The texts of a Go release. -/
def goTexts : BinTexts := ⟨fun t => ascii "binary.Read: invalid type " ++ t, fun t => ascii "binary.Write: invalid type " ++ t⟩

/-- An id nobody registered, and an acknowledgement of a wrong length, which is called unknown though it is not. -/
example : unmarshalText goTexts false [0x0B, 0x00, 0x01] =
    .ret (some (ascii "ipod.Command unmarshal: unknown cmd 0x0b,0x00")) := by decide +kernel
example : unmarshalText goTexts false [0x00, 0x02, 0x01] =
    .ret (some (ascii "ipod.Command unmarshal: unknown cmd 0x00,0x02")) := by decide +kernel
/-- A command of the extended lingo cut within its id, a body cut short, and a missing transaction. -/
example : unmarshalText goTexts false [0x04, 0x00] = .ret (some (ascii "ipod.Command unmarshal: unexpected EOF")) := by
  decide +kernel
example : unmarshalText goTexts false [0x00, 0x15, 0x01] =
    .ret (some (ascii "ipod.Command unmarshal: BinaryUnmarshaler: short packet")) := by decide +kernel
example : unmarshalText goTexts true [0x00, 0x39] = .ret (some (ascii "EOF")) := by decide +kernel
/-- A track name sent to us. -/
example : unmarshalText goTexts false [0x03, 0x13, 0x02, 0x41] =
    .ret (some (ascii "ipod.Command unmarshal: BinaryUnmarshaler: binary.Read: invalid type *dispremote.TrackInfoArtist")) := by
  decide +kernel
/-- A message without a size and a token without encoder. -/
example : marshalText goTexts ⟨0, none, .ptr (.gen .SetFIDTokenValues) ([⟨⟨0, 4⟩, .eaProtocol 1 []⟩], ())⟩ =
    some (ascii "ipod.Command marshal: BinaryMarshaler: unknown token") := by decide +kernel
example : marshalText goTexts ⟨0x15, none, .ptr (.gen .RetDevAuthenticationInfo) (2, 0, 0, 0, [], ())⟩ =
    some (ascii "ipod.Command marshal: binary.Write: binary.Write: invalid type *general.RetDevAuthenticationInfo") := by
  decide +kernel

end Props
