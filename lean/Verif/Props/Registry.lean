import Verif.Lemmas.RealRegistry

/-! # Properties C10–C13: command ids, registry and lookup -/

namespace Props
open Go Spec Ipod

/-! ## C10 -/

/-- C10. Packing and unpacking a command id. -/
theorem C10_id_packing (lingo : UInt8) (cmd : UInt16) :
    LingoCmdID.lingoID (newLingoCmdID lingo.toUInt16 cmd) = lingo ∧
    LingoCmdID.cmdID (newLingoCmdID lingo.toUInt16 cmd) = cmd := by
  rw [newLingoCmdID_eq]; simp

/-- C10. Different pairs give different ids. -/
theorem C10_id_injective (l l' : UInt8) (c c' : UInt16)
    (h : newLingoCmdID l.toUInt16 c = newLingoCmdID l'.toUInt16 c') : l = l' ∧ c = c' := by
  rw [newLingoCmdID_eq, newLingoCmdID_eq] at h
  exact idOf_inj h

example : (0x04 : UInt8) = 0x04 ∧ (0x0012 : UInt16) = 0x0012 := C10_id_injective 0x04 0x04 0x0012 0x0012 (by decide +kernel)

example : newLingoCmdID (0x04 : UInt8).toUInt16 0x0012 = 0x00040012 := by decide +kernel
example : LingoCmdID.lingoID 0x00040012 = 0x04 ∧ LingoCmdID.cmdID 0x00040012 = 0x0012 := by decide +kernel

/-! ## C11 -/

/-- C11. An id is written as its lingo byte and the command in the lingo's width. -/
theorem C11_id_written (lingo : UInt8) (cmd : UInt16) :
    marshalLingoCmdID (newLingoCmdID lingo.toUInt16 cmd) = idBytes lingo cmd ∧
    (idBytes lingo cmd).length = if lingo = 0x04 then 3 else 2 := by
  rw [newLingoCmdID_eq, marshalLingoCmdID_idOf]
  refine ⟨rfl, ?_⟩
  rw [idBytes]; split <;> rfl

/-- C11. An id that fits is read back, whatever follows. -/
theorem C11_id_roundtrip (id : UInt32) (h : IdFits id) (rest : Bytes) :
    unmarshalLingoCmdID (marshalLingoCmdID id ++ rest) = (.ok id, rest) := by
  obtain ⟨l, c, rfl, hf⟩ := h
  rw [marshalLingoCmdID_idOf, unmarshalLingoCmdID_idBytes l c hf]

example : unmarshalLingoCmdID (marshalLingoCmdID 0x00040012 ++ [0xAA]) = (.ok 0x00040012, [0xAA]) :=
  C11_id_roundtrip 0x00040012 ⟨0x04, 0x0012, by decide +kernel, .inl rfl⟩ [0xAA]

/-- C11. Exactly the ids that fit survive: others come back as a different id. -/
theorem C11_id_roundtrip_iff (id : UInt32) (rest : Bytes) :
    unmarshalLingoCmdID (marshalLingoCmdID id ++ rest) = (.ok id, rest) ↔ IdFits id := by
  refine ⟨fun h => ?_, fun h => C11_id_roundtrip id h rest⟩
  rw [marshalLingoCmdID_parts, unmarshalLingoCmdID_eq, idBytes] at h
  by_cases h4 : LingoCmdID.lingoID id = 4
  · simp only [h4, if_true, List.cons_append, List.nil_append, Prod.mk.injEq, Except.ok.injEq] at h
    exact ⟨4, _, h.1.symm, .inl rfl⟩
  · simp only [h4, if_false, List.cons_append, List.nil_append, Prod.mk.injEq, Except.ok.injEq] at h
    exact ⟨_, _, h.1.symm, .inr (by simp; omega)⟩

/-- C11. Every registered id fits. -/
theorem C11_registered_ids_fit (t : TypeId) :
    ∃ id, registry.lookupID t = some id ∧ IdFits id :=
  ⟨t.id, lookupID_eq t, t.lingo, t.cmd, rfl, id_fits t⟩

example : IdFits 0x00040012 := ⟨0x04, 0x0012, by decide +kernel, .inl rfl⟩
example : unmarshalLingoCmdID [0x04, 0x00, 0x12, 0xAA] = (.ok 0x00040012, [0xAA]) := by decide +kernel
example : ¬ IdFits 0x00000123 := by
  rintro ⟨l, c, h, h'⟩
  have h1 := lingoID_idOf l c
  have h2 := cmdID_idOf l c
  rw [← h] at h1 h2
  subst h1; subst h2
  revert h'
  decide +kernel

/-! ## C12 -/

/-- C12. After any sequence of registrations without repeated types, `LookupID` gives the registered id;
unregistered types are not found. -/
theorem C12_lookupID {T : Type} [DecidableEq T] (calls : List (UInt8 × List (Option UInt16 × T)))
    (hn : ((registrations calls).map (·.2)).Nodup) (t : T) (id : UInt32) :
    (Registry.empty.registerCalls calls).lookupID t = some id ↔ (id, t) ∈ registrations calls := by
  rw [registerCalls_eq]
  constructor
  · intro h
    by_cases hm : t ∈ (registrations calls).map (·.2)
    · obtain ⟨p, hp, rfl⟩ := List.mem_map.1 hm
      have := storeAll_lookupID Registry.empty _ hn p.2 p.1 hp
      rw [this] at h
      simp only [Option.some.injEq] at h
      subst h
      exact hp
    · rw [storeAll_lookupID_none _ _ _ hm] at h
      simp [Registry.empty, Registry.lookupID, mapGet] at h
  · exact storeAll_lookupID _ _ hn _ _

/-- C12. The candidates of an id are exactly the types registered under it, in order. -/
theorem C12_candidates {T : Type} [DecidableEq T] (calls : List (UInt8 × List (Option UInt16 × T)))
    (id : UInt32) :
    (mapGet (Registry.empty.registerCalls calls).idToType id).getD [] = candidates (registrations calls) id := by
  rw [registerCalls_eq, storeAll_candidates]
  split
  · rename_i h; rw [h]; rfl
  · simp [Registry.empty, mapGet]

/-- C12. `RegisterLingos` reports an error exactly if a tag is malformed. -/
theorem C12_register_error {T : Type} [DecidableEq T] (r : Registry T) (lingo : UInt8)
    (fs : List (Option UInt16 × T)) :
    (r.registerLingos lingo fs).2 = none ↔ ∀ f ∈ fs, f.1 ≠ none := by
  rw [registerLingos_eq]
  simp only [ite_eq_left_iff, reduceCtorEq, imp_false, Decidable.not_not, Option.isSome_iff_ne_none]

/-- Three types of two lingos, two sharing an id. -/
example : (Registry.empty.registerCalls [((0 : UInt8), [(some 2, "A"), (some 2, "B")]), (4, [(some 2, "C")])]).lookupID
    "B" = some 0x00000002 :=
  (C12_lookupID [((0 : UInt8), [(some 2, "A"), (some 2, "B")]), (4, [(some 2, "C")])] (by decide +kernel) _ _).2
    (by decide +kernel)
example : candidates (registrations [((0 : UInt8), [(some 2, "A"), (some 2, "B")]), (4, [(some 2, "C")])]) 2 =
    ["A", "B"] := by decide +kernel

/-! ## C13 -/

/-- C13. What `Lookup` finds. -/
theorem C13_lookup_found {T : Type} [DecidableEq T] (r : Registry T) (size : T → Option Nat) (id : UInt32)
    (n : Nat) (dflt : Bool) (t : T) (b : Bool) :
    r.lookup size id n dflt = some (t, b) ↔ Found size n dflt ((mapGet r.idToType id).getD []) t b := by
  rw [Registry.lookup]
  cases mapGet r.idToType id with
  | none =>
    simp only [reduceCtorEq, Option.getD_none, false_iff]
    intro h
    cases h with
    | fits h => simp at h
    | sole h => simp at h
  | some cs =>
    simp only [Option.getD_some]
    have hs := lookupLoop_some size n cs
    have hn := lookupLoop_none size n cs
    cases hl : lookupLoop size n cs with
    | some x =>
      obtain ⟨t', b'⟩ := x
      have h1 := (hs t' b').1 hl
      simp only [Option.some.injEq, Prod.mk.injEq]
      constructor
      · rintro ⟨rfl, rfl⟩
        obtain ⟨pre, post, h2, h3, h4⟩ := h1
        exact .fits h2 h3 h4
      · intro h
        cases h with
        | fits h2 h3 h4 =>
          have := (hs t b).2 ⟨_, _, h2, h3, h4⟩
          rw [hl] at this
          simpa using this
        | sole h2 h3 =>
          obtain ⟨pre, post, h4, h5, h6⟩ := h1
          rw [h2] at h4
          cases pre with
          | nil =>
            simp only [List.nil_append, List.cons.injEq] at h4
            rw [← h4.1] at h6
            exact absurd h6 (h3 _)
          | cons p ps => simp at h4
    | none =>
      simp only
      have hno := hn.1 hl
      have nofit : ∀ {pre post}, cs = pre ++ t :: post → ¬ Fits (size t) n b := by
        intro pre post h
        exact hno t (h ▸ by simp) b
      split
      · rename_i p
        simp only [Option.some.injEq, Prod.mk.injEq]
        constructor
        · rintro ⟨rfl, rfl⟩
          exact .sole rfl (hno p (by simp))
        · intro h
          cases h with
          | fits h2 _ h4 => exact absurd h4 (nofit h2)
          | sole h2 _ => simp only [List.cons.injEq, and_true] at h2; exact ⟨h2, rfl⟩
      · rename_i hne
        simp only [reduceCtorEq, false_iff]
        intro h
        cases h with
        | fits h2 _ h4 => exact absurd h4 (nofit h2)
        | sole h2 _ => exact hne _ h2

/-- C13. When `Lookup` finds nothing. -/
theorem C13_lookup_not_found {T : Type} [DecidableEq T] (r : Registry T) (size : T → Option Nat) (id : UInt32)
    (n : Nat) (dflt : Bool) :
    r.lookup size id n dflt = none ↔
      mapGet r.idToType id = none ∨
      ∃ cs, mapGet r.idToType id = some cs ∧ cs.length ≠ 1 ∧ ∀ p ∈ cs, ∀ b, ¬ Fits (size p) n b := by
  rw [Registry.lookup]
  cases mapGet r.idToType id with
  | none => simp
  | some cs =>
    have hn := lookupLoop_none size n cs
    simp only [reduceCtorEq, Option.some.injEq, exists_eq_left', false_or]
    rw [← hn]
    cases lookupLoop size n cs with
    | some x => simp
    | none =>
      simp only [and_true]
      match cs with
      | [] => simp
      | [p] => simp
      | _ :: _ :: _ => simp

/-- C13 for the shipped messages: an id without registered message is the only reason besides a size mismatch
with an id shared by several messages. -/
theorem C13_registered_not_found (id : UInt32) (n : Nat) (dflt : Bool) :
    registry.lookup TypeId.size id n dflt = none ↔
      (∀ t, registry.lookupID t ≠ some id) ∨
      ((∃ t t', t ≠ t' ∧ registry.lookupID t = some id ∧ registry.lookupID t' = some id) ∧
        ∀ t, registry.lookupID t = some id → ∀ b, ¬ Fits t.size n b) := by
  rw [C13_lookup_not_found, mapGet_registry]
  simp only [lookupID_eq, ne_eq, Option.some.injEq]
  have hnd : (cands id).Nodup := List.Nodup.sublist List.filter_sublist TypeId.all_nodup
  by_cases h : cands id = []
  · rw [if_pos h]
    simp only [true_or, true_iff]
    left
    intro t ht
    have := mem_cands.2 ht
    rw [h] at this
    simp at this
  · rw [if_neg h]
    simp only [reduceCtorEq, Option.some.injEq, false_or, exists_eq_left']
    obtain ⟨t0, ht0⟩ := List.exists_mem_of_ne_nil _ h
    constructor
    · rintro ⟨h1, h2⟩
      right
      refine ⟨?_, fun t ht => h2 t (mem_cands.2 ht)⟩
      revert h h1 hnd
      generalize hc : cands id = cs
      match cs with
      | [] => intro _ h; simp at h
      | [p] => intro _ _ h; simp at h
      | p :: q :: l =>
        intro hnd _ _
        refine ⟨p, q, ?_, mem_cands.1 (hc ▸ by simp), mem_cands.1 (hc ▸ by simp)⟩
        intro he
        simp [he] at hnd
    · rintro (h1 | ⟨⟨t, t', hne, h1, h2⟩, h3⟩)
      · exact absurd (mem_cands.1 ht0) (h1 t0)
      · refine ⟨?_, fun p hp => h3 p (mem_cands.1 hp)⟩
        have m1 := mem_cands.2 h1
        have m2 := mem_cands.2 h2
        revert m1 m2
        generalize cands id = cs
        match cs with
        | [] => simp
        | [p] => intro h1 h2; simp at h1 h2; exact absurd (h1.trans h2.symm) hne
        | _ :: _ :: _ => simp

/-- Two candidates of sizes 2 and 6: a payload of 8 bytes is the second with a transaction. -/
example : Found (fun n : Nat => some n) 8 false [2, 6] 6 true :=
  .fits (pre := [2]) (post := []) rfl
    (by
      intro p hp b hf
      simp only [List.mem_cons, List.not_mem_nil, or_false] at hp
      subst hp
      cases hf <;> simp at * <;> omega)
    (.withTrx rfl rfl)
example : registry.lookup TypeId.size 0x000002 5 true = none := by decide +kernel
example : registry.lookup TypeId.size 0x000002 6 true = some (.gen .ACKPending, false) := by decide +kernel

end Props
