import Verif.Spec.Registry
import Verif.Lemmas.Struct

namespace Ipod
open Go

/-! ### ids -/

theorem newLingoCmdID_toNat (l c : UInt16) : (newLingoCmdID l c).toNat = l.toNat * 65536 + c.toNat := by
  have h1 := l.toNat_lt
  have h2 := c.toNat_lt
  simp only [newLingoCmdID, UInt32.toNat_or, UInt32.toNat_shiftLeft, UInt16.toNat_toUInt32]
  have e : (UInt32.toNat 16) % 32 = 16 := by decide
  rw [e, Nat.shiftLeft_eq]
  rw [Nat.mod_eq_of_lt (by omega)]
  rw [show (2 ^ 16 : Nat) = 65536 from rfl]
  have := Nat.shiftLeft_add_eq_or_of_lt (i := 16) (b := c.toNat) h2 l.toNat
  rw [Nat.shiftLeft_eq] at this
  exact this.symm

theorem newLingoCmdID_eq (l : UInt8) (c : UInt16) : newLingoCmdID l.toUInt16 c = Spec.idOf l c := by
  apply UInt32.toNat_inj.1
  have h1 := l.toNat_lt
  have h2 := c.toNat_lt
  rw [newLingoCmdID_toNat, Spec.idOf, UInt32.toNat_ofNat_of_lt' (by simp [UInt32.size]; omega)]
  simp

theorem idOf_toNat (l : UInt8) (c : UInt16) : (Spec.idOf l c).toNat = l.toNat * 65536 + c.toNat := by
  have h1 := l.toNat_lt
  have h2 := c.toNat_lt
  rw [Spec.idOf, UInt32.toNat_ofNat_of_lt' (by simp [UInt32.size]; omega)]

theorem lingoID_toNat (id : UInt32) : (LingoCmdID.lingoID id).toNat = id.toNat / 65536 % 256 := by
  have e : (UInt32.toNat 16) % 32 = 16 := by decide
  simp only [LingoCmdID.lingoID, UInt32.toNat_toUInt8, UInt32.toNat_and, UInt32.toNat_shiftRight, e,
    Nat.shiftRight_eq_div_pow]
  have : UInt32.toNat 255 = 2 ^ 8 - 1 := by decide
  rw [this, Nat.and_two_pow_sub_one_eq_mod]
  omega

theorem cmdID_toNat (id : UInt32) : (LingoCmdID.cmdID id).toNat = id.toNat % 65536 := by
  simp only [LingoCmdID.cmdID, UInt32.toNat_toUInt16, UInt32.toNat_and]
  have : UInt32.toNat 65535 = 2 ^ 16 - 1 := by decide
  rw [this, Nat.and_two_pow_sub_one_eq_mod]
  omega

@[simp] theorem lingoID_idOf (l : UInt8) (c : UInt16) : LingoCmdID.lingoID (Spec.idOf l c) = l := by
  apply UInt8.toNat_inj.1
  have h1 := l.toNat_lt
  have h2 := c.toNat_lt
  rw [lingoID_toNat, idOf_toNat]
  omega

@[simp] theorem cmdID_idOf (l : UInt8) (c : UInt16) : LingoCmdID.cmdID (Spec.idOf l c) = c := by
  apply UInt16.toNat_inj.1
  have h2 := c.toNat_lt
  rw [cmdID_toNat, idOf_toNat]
  omega

theorem idOf_inj {l l' : UInt8} {c c' : UInt16} (h : Spec.idOf l c = Spec.idOf l' c') : l = l' ∧ c = c' := by
  have h1 := lingoID_idOf l c
  have h2 := cmdID_idOf l c
  rw [h] at h1 h2
  simp only [lingoID_idOf, cmdID_idOf] at h1 h2
  exact ⟨h1.symm, h2.symm⟩

theorem idOf_parts (id : UInt32) (h : id.toNat < 2 ^ 24) :
    Spec.idOf (LingoCmdID.lingoID id) (LingoCmdID.cmdID id) = id := by
  apply UInt32.toNat_inj.1
  rw [idOf_toNat, lingoID_toNat, cmdID_toNat]
  omega

theorem beEnc_two (n : Nat) : beEnc 2 n = [UInt8.ofNat (n / 256), UInt8.ofNat (n % 256)] := by
  simp only [beEnc, Nat.pow_one, Nat.pow_zero, Nat.div_one]
  congr 2
  apply UInt8.toNat_inj.1
  simp

theorem marshalLingoCmdID_idOf (l : UInt8) (c : UInt16) :
    marshalLingoCmdID (Spec.idOf l c) = Spec.idBytes l c := by
  simp only [marshalLingoCmdID, lingoID_idOf, cmdID_idOf, Spec.idBytes, cmdIDLen, FTy.enc]
  by_cases h : l = 4
  · simp [h, beEnc_two]
  · simp only [h, if_false]
    simp
    apply UInt8.toNat_inj.1
    simp

/-- For ids beyond 24 bits the high byte is dropped. -/
theorem marshalLingoCmdID_parts (id : UInt32) :
    marshalLingoCmdID id = Spec.idBytes (LingoCmdID.lingoID id) (LingoCmdID.cmdID id) := by
  rw [← marshalLingoCmdID_idOf]
  simp [marshalLingoCmdID]

@[simp] theorem structSize_u8 : structSize [.u8] = some 1 := rfl
@[simp] theorem structSize_u16 : structSize [.u16] = some 2 := rfl
@[simp] theorem structSize_u32 : structSize [.u32] = some 4 := rfl

theorem binRead_u8_nil : binRead [.u8] [] = (.error .eof, []) := rfl
theorem binRead_u8_cons (x : UInt8) (r : Bytes) : binRead [.u8] (x :: r) = (.ok (x, ()), r) := by
  have := binRead_encStruct structSize_u8 (x, ()) r
  simpa [encStruct, FTy.enc] using this
theorem binRead_u16_nil : binRead [.u16] [] = (.error .eof, []) := rfl
theorem binRead_u16_one (x : UInt8) : binRead [.u16] [x] = (.error .unexpectedEOF, []) := rfl
theorem binRead_u16_cons (x y : UInt8) (r : Bytes) :
    binRead [.u16] (x :: y :: r) = (.ok (UInt16.ofNat (x.toNat * 256 + y.toNat), ()), r) := by
  obtain ⟨v, hv, hd⟩ := binRead_long structSize_u16 (r := x :: y :: r) (by simp)
  rw [hv]
  simp [decStruct, FTy.size, FTy.dec, beDec] at hd
  rw [← hd]; simp

theorem binRead_u16_enc (v : UInt16) (r : Bytes) : binRead [.u16] (FTy.enc .u16 v ++ r) = (.ok (v, ()), r) := by
  have := binRead_encStruct structSize_u16 (v, ()) r
  simpa only [encStruct, List.append_nil] using this

/-- What `unmarshalLingoCmdID` accepts. -/
theorem unmarshalLingoCmdID_eq (pkt : Bytes) :
    unmarshalLingoCmdID pkt =
      match pkt with
      | [] => (.error .eof, [])
      | l :: r =>
        if l = 0x04 then
          match r with
          | [] => (.error .eof, [])
          | [_] => (.error .unexpectedEOF, [])
          | x :: y :: r => (.ok (Spec.idOf l (UInt16.ofNat (x.toNat * 256 + y.toNat))), r)
        else
          match r with
          | [] => (.error .eof, [])
          | x :: r => (.ok (Spec.idOf l x.toUInt16), r) := by
  match pkt with
  | [] => rfl
  | l :: r =>
    simp only [unmarshalLingoCmdID, binRead_u8_cons, cmdIDLen]
    by_cases h : l = 4
    · simp only [h, if_true]
      match r with
      | [] => rfl
      | [x] => rfl
      | x :: y :: r => simp only [binRead_u16_cons, newLingoCmdID_eq]
    · simp only [h, if_false]
      match r with
      | [] => rfl
      | x :: r => simp [binRead_u8_cons, newLingoCmdID_eq]

theorem unmarshalLingoCmdID_idBytes (l : UInt8) (c : UInt16) (h : l = 0x04 ∨ c.toNat < 256) (rest : Bytes) :
    unmarshalLingoCmdID (Spec.idBytes l c ++ rest) = (.ok (Spec.idOf l c), rest) := by
  have hc := c.toNat_lt
  rw [unmarshalLingoCmdID_eq, Spec.idBytes]
  by_cases hl : l = 4
  · subst hl
    simp only [if_true, List.cons_append, List.nil_append]
    congr 3
    apply UInt16.toNat_inj.1
    simp
    omega
  · have h' : c.toNat < 256 := by simpa [hl] using h
    simp only [hl, if_false, List.cons_append, List.nil_append]
    congr 3
    apply UInt16.toNat_inj.1
    simp
    omega

/-! ### maps and the registry -/

theorem mapGet_mapSet {K V : Type} [DecidableEq K] (m : List (K × V)) (k k' : K) (v : V) :
    mapGet (mapSet m k v) k' = if k = k' then some v else mapGet m k' := by
  induction m with
  | nil => simp [mapSet, mapGet]
  | cons p m ih =>
    obtain ⟨a, b⟩ := p
    simp only [mapSet]
    by_cases h : a = k
    · subst h
      by_cases h2 : a = k' <;> simp [mapGet, h2]
    · by_cases h2 : a = k'
      · subst h2
        have : ¬ k = a := fun e => h e.symm
        simp [mapGet, h, this]
      · simp [mapGet, h, h2, ih]

/-- Registering a list of (id, type) pairs one by one. -/
def Registry.storeAll {T : Type} [DecidableEq T] (r : Registry T) (regs : List (UInt32 × T)) : Registry T :=
  regs.foldl (fun r p => r.storeMapping p.1 p.2) r

theorem registerLingos_eq {T : Type} [DecidableEq T] (r : Registry T) (l : UInt8)
    (fs : List (Option UInt16 × T)) :
    r.registerLingos l fs = (r.storeAll (Spec.callRegistrations l fs),
      if ∀ f ∈ fs, f.1.isSome then none else some Err.parseTag) := by
  induction fs generalizing r with
  | nil => simp [Registry.registerLingos, Registry.storeAll, Spec.callRegistrations]
  | cons f fs ih =>
    obtain ⟨c, t⟩ := f
    cases c with
    | none => simp [Registry.registerLingos, Registry.storeAll, Spec.callRegistrations]
    | some c =>
      rw [Registry.registerLingos, ih, newLingoCmdID_eq]
      by_cases h : ∀ f ∈ fs, f.1.isSome
      · have h2 : ∀ f ∈ (some c, t) :: fs, f.1.isSome := by
          intro f hf
          rcases List.mem_cons.1 hf with rfl | hf
          · rfl
          · exact h f hf
        rw [if_pos h, if_pos h2]
        rfl
      · have h2 : ¬ ∀ f ∈ (some c, t) :: fs, f.1.isSome := fun hh => h fun f hf => hh f (by simp [hf])
        rw [if_neg h, if_neg h2]
        rfl

/-- Running a sequence of `RegisterLingos` calls. -/
def Registry.registerCalls {T : Type} [DecidableEq T] (r : Registry T)
    (calls : List (UInt8 × List (Option UInt16 × T))) : Registry T :=
  calls.foldl (fun r c => (r.registerLingos c.1 c.2).1) r

theorem registerCalls_eq {T : Type} [DecidableEq T] (r : Registry T)
    (calls : List (UInt8 × List (Option UInt16 × T))) :
    r.registerCalls calls = r.storeAll (Spec.registrations calls) := by
  induction calls generalizing r with
  | nil => rfl
  | cons c cs ih =>
    rw [Registry.registerCalls, List.foldl_cons]
    rw [show ∀ r' : Registry T, cs.foldl (fun r c => (r.registerLingos c.1 c.2).1) r' = r'.registerCalls cs
      from fun _ => rfl]
    rw [ih, registerLingos_eq]
    simp [Registry.storeAll, Spec.registrations]

theorem storeAll_candidates {T : Type} [DecidableEq T] (r : Registry T) (regs : List (UInt32 × T))
    (id : UInt32) :
    mapGet (r.storeAll regs).idToType id =
      if Spec.candidates regs id = [] then mapGet r.idToType id
      else some ((mapGet r.idToType id).getD [] ++ Spec.candidates regs id) := by
  induction regs generalizing r with
  | nil => simp [Registry.storeAll, Spec.candidates]
  | cons p ps ih =>
    rw [Registry.storeAll, List.foldl_cons]
    rw [show ∀ r' : Registry T, ps.foldl (fun r p => r.storeMapping p.1 p.2) r' = r'.storeAll ps
      from fun _ => rfl]
    rw [ih]
    simp only [Registry.storeMapping, mapGet_mapSet]
    obtain ⟨a, t⟩ := p
    by_cases h : a = id
    · subst h
      by_cases hc : Spec.candidates ps a = []
      · have : Spec.candidates ((a, t) :: ps) a = [t] := by
          simp only [Spec.candidates] at hc ⊢
          simp [hc]
        simp [hc, this]
      · have : Spec.candidates ((a, t) :: ps) a = t :: Spec.candidates ps a := by
          simp [Spec.candidates]
        simp [hc, this]
    · have : Spec.candidates ((a, t) :: ps) id = Spec.candidates ps id := by
        simp [Spec.candidates, h]
      simp [this, h]

theorem storeAll_lookupID {T : Type} [DecidableEq T] (r : Registry T) (regs : List (UInt32 × T))
    (hn : (regs.map (·.2)).Nodup) (t : T) (id : UInt32) (h : (id, t) ∈ regs) :
    (r.storeAll regs).lookupID t = some id := by
  have keep : ∀ (regs : List (UInt32 × T)) (r : Registry T), t ∉ regs.map (·.2) →
      (r.storeAll regs).lookupID t = r.lookupID t := by
    intro regs
    induction regs with
    | nil => intro r _; rfl
    | cons p ps ih =>
      intro r hm
      simp only [List.map_cons, List.mem_cons, not_or] at hm
      rw [Registry.storeAll, List.foldl_cons]
      have := ih (r.storeMapping p.1 p.2) hm.2
      rw [Registry.storeAll] at this
      rw [this]
      simp only [Registry.lookupID, Registry.storeMapping, mapGet_mapSet]
      rw [if_neg (fun e => hm.1 e.symm)]
  induction regs generalizing r with
  | nil => simp at h
  | cons p ps ih =>
    rw [Registry.storeAll, List.foldl_cons]
    rw [show ∀ r' : Registry T, ps.foldl (fun r p => r.storeMapping p.1 p.2) r' = r'.storeAll ps
      from fun _ => rfl]
    simp only [List.map_cons, List.nodup_cons] at hn
    rcases List.mem_cons.1 h with h | h
    · subst h
      rw [keep ps _ hn.1]
      simp [Registry.lookupID, Registry.storeMapping, mapGet_mapSet]
    · exact ih _ hn.2 h

theorem storeAll_lookupID_none {T : Type} [DecidableEq T] (regs : List (UInt32 × T)) (r : Registry T)
    (t : T) (h : t ∉ regs.map (·.2)) : (r.storeAll regs).lookupID t = r.lookupID t := by
  induction regs generalizing r with
  | nil => rfl
  | cons p ps ih =>
    simp only [List.map_cons, List.mem_cons, not_or] at h
    rw [Registry.storeAll, List.foldl_cons]
    have := ih (r.storeMapping p.1 p.2) h.2
    rw [Registry.storeAll] at this
    rw [this]
    simp only [Registry.lookupID, Registry.storeMapping, mapGet_mapSet]
    rw [if_neg (fun e => h.1 e.symm)]

/-! ### Lookup -/

theorem fits_plain {s : Option Nat} {n : Nat} : Spec.Fits s n false ↔ s = some n :=
  ⟨fun h => by cases h; assumption, .plain⟩

theorem fits_trx {s : Option Nat} {n : Nat} : Spec.Fits s n true ↔ ∃ m, s = some m ∧ m + 2 = n :=
  ⟨fun h => by cases h with | withTrx a b => exact ⟨_, a, b⟩, fun ⟨_, a, b⟩ => .withTrx a b⟩

theorem lookupLoop_some {T : Type} (size : T → Option Nat) (n : Nat) (cs : List T) (t : T) (b : Bool) :
    lookupLoop size n cs = some (t, b) ↔
      ∃ pre post, cs = pre ++ t :: post ∧ (∀ p ∈ pre, ∀ b, ¬ Spec.Fits (size p) n b) ∧
        Spec.Fits (size t) n b := by
  induction cs with
  | nil => simp [lookupLoop]
  | cons c cs ih =>
    have step : (∀ b, ¬ Spec.Fits (size c) n b) →
        (lookupLoop size n cs = some (t, b) ↔
        ∃ pre post, c :: cs = pre ++ t :: post ∧ (∀ p ∈ pre, ∀ b, ¬ Spec.Fits (size p) n b) ∧
          Spec.Fits (size t) n b) := by
      intro hno
      rw [ih]
      constructor
      · rintro ⟨pre, post, rfl, h1, h2⟩
        refine ⟨c :: pre, post, rfl, ?_, h2⟩
        intro p hp
        rcases List.mem_cons.1 hp with rfl | hp
        · exact hno
        · exact h1 p hp
      · rintro ⟨pre, post, he, h1, h2⟩
        cases pre with
        | nil =>
          simp only [List.nil_append, List.cons.injEq] at he
          rw [← he.1] at h2
          exact absurd h2 (hno b)
        | cons p pre =>
          simp only [List.cons_append, List.cons.injEq] at he
          exact ⟨pre, post, he.2, fun q hq => h1 q (by simp [hq]), h2⟩
    have hit : ∀ b', Spec.Fits (size c) n b' → (∀ b'', Spec.Fits (size c) n b'' → b'' = b') →
        ((c = t ∧ b' = b) ↔
        ∃ pre post, c :: cs = pre ++ t :: post ∧ (∀ p ∈ pre, ∀ b, ¬ Spec.Fits (size p) n b) ∧
          Spec.Fits (size t) n b) := by
      intro b' hb huniq
      constructor
      · rintro ⟨rfl, rfl⟩
        exact ⟨[], cs, rfl, by simp, hb⟩
      · rintro ⟨pre, post, he, h1, h2⟩
        cases pre with
        | nil =>
          simp only [List.nil_append, List.cons.injEq] at he
          rw [← he.1] at h2
          exact ⟨he.1, (huniq b h2).symm⟩
        | cons p pre =>
          simp only [List.cons_append, List.cons.injEq] at he
          have := h1 p (by simp) b'
          rw [← he.1] at this
          exact absurd hb this
    rw [lookupLoop]
    cases hs : size c with
    | none =>
      simp only
      apply step
      intro b hb
      rw [hs] at hb
      cases hb <;> simp_all
    | some m =>
      simp only
      split
      · rename_i h
        have hm : m = n := by omega
        rw [Option.some.injEq, Prod.mk.injEq]
        refine hit false (fits_plain.2 (by rw [hs, hm])) ?_
        intro b'' hb''
        cases b'' with
        | false => rfl
        | true =>
          obtain ⟨k, h1, h2⟩ := fits_trx.1 hb''
          rw [hs] at h1
          simp only [Option.some.injEq] at h1
          omega
      · split
        · rename_i h0 h
          have hm : m + 2 = n := by omega
          rw [Option.some.injEq, Prod.mk.injEq]
          refine hit true (fits_trx.2 ⟨m, hs, hm⟩) ?_
          intro b'' hb''
          cases b'' with
          | true => rfl
          | false =>
            have h1 := fits_plain.1 hb''
            rw [hs] at h1
            simp only [Option.some.injEq] at h1
            omega
        · rename_i h0 h1
          apply step
          intro b hb
          cases b with
          | false =>
            have h2 := fits_plain.1 hb
            rw [hs] at h2
            simp only [Option.some.injEq] at h2
            omega
          | true =>
            obtain ⟨k, h2, h3⟩ := fits_trx.1 hb
            rw [hs] at h2
            simp only [Option.some.injEq] at h2
            omega

theorem lookupLoop_none {T : Type} (size : T → Option Nat) (n : Nat) (cs : List T) :
    lookupLoop size n cs = none ↔ ∀ p ∈ cs, ∀ b, ¬ Spec.Fits (size p) n b := by
  induction cs with
  | nil => simp [lookupLoop]
  | cons c cs ih =>
    simp only [List.forall_mem_cons]
    rw [← ih, lookupLoop]
    cases hs : size c with
    | none =>
      simp only [iff_and_self]
      intro _ b hb
      cases hb <;> simp_all
    | some m =>
      simp only
      split
      · rename_i h
        simp only [reduceCtorEq, false_iff, not_and]
        intro h1
        exact absurd (fits_plain.2 (by congr; omega)) (h1 false)
      · split
        · rename_i h
          simp only [reduceCtorEq, false_iff, not_and]
          intro h1
          exact absurd (fits_trx.2 ⟨m, rfl, by omega⟩) (h1 true)
        · rename_i h1 h2
          simp only [iff_and_self]
          intro _ b hb
          cases b with
          | false =>
            have h3 := fits_plain.1 hb
            simp only [Option.some.injEq] at h3
            omega
          | true =>
            obtain ⟨k, h3, h4⟩ := fits_trx.1 hb
            simp only [Option.some.injEq] at h3
            omega

end Ipod
