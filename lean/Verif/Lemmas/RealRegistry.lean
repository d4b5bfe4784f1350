import Verif.Lemmas.Lingo
import Verif.Model.Serde

/-! Facts about the registry filled by the five lingo packages. -/

namespace Ipod
open Go

/-- Lingo of a message type. -/
def TypeId.lingo : TypeId → UInt8
  | .gen _ => lingoGeneralID
  | .ext _ => lingoExtRemoteID
  | .disp _ => lingoDisplayRemoteID
  | .aud _ => lingoDigitalAudioID
  | .sim _ => lingoSimpleRemoteID

/-- Command id of a message type. -/
def TypeId.cmd : TypeId → UInt16
  | .gen t => t.cmdID
  | .ext t => t.cmdID
  | .disp t => t.cmdID
  | .aud t => t.cmdID
  | .sim t => t.cmdID

/-- The id a message type is registered under. -/
def TypeId.id (t : TypeId) : UInt32 := Spec.idOf t.lingo t.cmd

theorem TypeId.mem_all (t : TypeId) : t ∈ TypeId.all := by
  have hg : ∀ g : GenT, g ∈ GenT.all := by intro g; cases g <;> decide +kernel
  have he : ∀ g : ExtT, g ∈ ExtT.all := by intro g; cases g <;> decide +kernel
  have hd : ∀ g : DispT, g ∈ DispT.all := by intro g; cases g <;> decide +kernel
  have ha : ∀ g : AudT, g ∈ AudT.all := by intro g; cases g <;> decide +kernel
  have hs : ∀ g : SimT, g ∈ SimT.all := by intro g; cases g <;> decide +kernel
  cases t <;> simp [TypeId.all, hg, he, hd, ha, hs]

theorem TypeId.all_nodup : TypeId.all.Nodup := by decide +kernel

/-- The `RegisterLingos` calls of the five packages. -/
def registryCalls : List (UInt8 × List (Option UInt16 × TypeId)) :=
  [(lingoDigitalAudioID, AudT.all.map fun t => (some t.cmdID, .aud t)),
   (lingoDisplayRemoteID, DispT.all.map fun t => (some t.cmdID, .disp t)),
   (lingoExtRemoteID, ExtT.all.map fun t => (some t.cmdID, .ext t)),
   (lingoGeneralID, GenT.all.map fun t => (some t.cmdID, .gen t)),
   (lingoSimpleRemoteID, SimT.all.map fun t => (some t.cmdID, .sim t))]

theorem registry_eq_calls : registry = Registry.empty.registerCalls registryCalls := by
  unfold registry
  rfl

theorem callRegistrations_map {α T : Type} (l : UInt8) (c : α → UInt16) (f : α → T) (xs : List α) :
    Spec.callRegistrations l (xs.map fun x => (some (c x), f x)) = xs.map fun x => (Spec.idOf l (c x), f x) := by
  induction xs with
  | nil => rfl
  | cons x xs ih => simp [Spec.callRegistrations, ih]

theorem registrations_eq : Spec.registrations registryCalls = TypeId.all.map fun t => (t.id, t) := by
  simp only [Spec.registrations, registryCalls, List.map_cons, List.map_nil, callRegistrations_map,
    TypeId.all, List.map_append, List.map_map, List.flatten_cons, List.flatten_nil, List.append_nil,
    List.append_assoc]
  rfl

theorem registry_eq : registry = Registry.empty.storeAll (TypeId.all.map fun t => (t.id, t)) := by
  rw [registry_eq_calls, registerCalls_eq, registrations_eq]

theorem lookupID_eq (t : TypeId) : registry.lookupID t = some t.id := by
  rw [registry_eq]
  apply storeAll_lookupID
  · simp only [List.map_map]
    rw [show ((fun x : UInt32 × TypeId => x.2) ∘ fun t => (t.id, t)) = _root_.id from rfl]
    simpa using TypeId.all_nodup
  · exact List.mem_map.2 ⟨t, t.mem_all, rfl⟩

/-- The types registered under an id. -/
def cands (id : UInt32) : List TypeId := TypeId.all.filter fun t => t.id = id

theorem candidates_eq (id : UInt32) :
    Spec.candidates (TypeId.all.map fun t => (t.id, t)) id = cands id := by
  simp only [Spec.candidates, cands, List.filter_map, List.map_map]
  rw [show ((fun x : UInt32 × TypeId => x.2) ∘ fun t => (t.id, t)) = _root_.id from rfl]
  simp only [List.map_id]
  rfl

theorem mapGet_registry (id : UInt32) :
    mapGet registry.idToType id = if cands id = [] then none else some (cands id) := by
  rw [registry_eq, storeAll_candidates, candidates_eq]
  simp [Registry.empty, mapGet]

theorem mem_cands {id : UInt32} {t : TypeId} : t ∈ cands id ↔ t.id = id := by
  simp [cands, t.mem_all]

/-- The lookup on the real registry. -/
theorem lookup_registry (id : UInt32) (n : Nat) (d : Bool) :
    registry.lookup TypeId.size id n d =
      match lookupLoop TypeId.size n (cands id) with
      | some x => some x
      | none => match cands id with
        | [p] => some (p, d)
        | _ => none := by
  rw [Registry.lookup, mapGet_registry]
  by_cases h : cands id = []
  · rw [if_pos h, h]; rfl
  · rw [if_neg h]
    simp only
    generalize cands id = cs
    cases lookupLoop TypeId.size n cs with
    | some x => rfl
    | none =>
      match cs with
      | [] => rfl
      | [p] => rfl
      | _ :: _ :: _ => rfl

theorem lookup_found {id : UInt32} {n : Nat} {d : Bool} {t : TypeId} {b : Bool}
    (h : registry.lookup TypeId.size id n d = some (t, b)) : t.id = id := by
  rw [lookup_registry] at h
  cases hl : lookupLoop TypeId.size n (cands id) with
  | some x =>
    rw [hl] at h
    simp only [Option.some.injEq] at h
    subst h
    obtain ⟨pre, post, he, _⟩ := (lookupLoop_some _ _ _ _ _).1 hl
    exact mem_cands.1 (he ▸ by simp)
  | none =>
    rw [hl] at h
    simp only at h
    split at h
    · rename_i p hp
      simp only [Option.some.injEq, Prod.mk.injEq] at h
      obtain ⟨rfl, _⟩ := h
      exact mem_cands.1 (hp ▸ by simp)
    · simp at h

/-- All ids with several candidates. -/
theorem cands_table : ∀ t ∈ TypeId.all, cands t.id = [t] ∨
    cands t.id = [.gen .ACK, .gen .ACKPending, .gen .ACKDataDropped] ∨
    cands t.id = [.gen .GetDevAuthenticationSignatureV1, .gen .GetDevAuthenticationSignatureV2] ∨
    cands t.id = [.ext .SetPlayStatusChangeNotification, .ext .SetPlayStatusChangeNotificationShort] := by
  decide +kernel

/-- Types of variable size are alone under their id. -/
theorem cands_var {t : TypeId} (h : t.size = none) : cands t.id = [t] := by
  have hm : t ∈ cands t.id := mem_cands.2 rfl
  rcases cands_table t t.mem_all with h1 | h1 | h1 | h1
  · exact h1
  all_goals
    rw [h1] at hm
    simp only [List.mem_cons, List.not_mem_nil, or_false] at hm
    rcases hm with rfl | rfl | rfl <;> simp [TypeId.size, structSize, FTy.size] at h

theorem lookup_var {t : TypeId} (h : t.size = none) (n : Nat) (d : Bool) :
    registry.lookup TypeId.size t.id n d = some (t, d) := by
  rw [lookup_registry, cands_var h]
  simp [lookupLoop, h]

/-- Looking up a fixed-size type by its exact size. -/
theorem lookup_plain {t : TypeId} {n : Nat} (h : t.size = some n) (hne : t ≠ .gen .ACKDataDropped) (d : Bool) :
    registry.lookup TypeId.size t.id n d = some (t, false) := by
  have hm : t ∈ cands t.id := mem_cands.2 rfl
  rw [lookup_registry]
  rcases cands_table t t.mem_all with h1 | h1 | h1 | h1
  · rw [h1]; simp [lookupLoop, h]
  all_goals
    rw [h1] at hm ⊢
    simp only [List.mem_cons, List.not_mem_nil, or_false] at hm
    rcases hm with rfl | rfl | rfl <;>
      simp_all [TypeId.size, structSize, FTy.size] <;> subst h <;> rfl

/-- Looking up a fixed-size type by its size with a transaction. -/
theorem lookup_trx {t : TypeId} {n : Nat} (h : t.size = some n) (d : Bool) :
    registry.lookup TypeId.size t.id (n + 2) d = some (t, true) := by
  have hm : t ∈ cands t.id := mem_cands.2 rfl
  rw [lookup_registry]
  rcases cands_table t t.mem_all with h1 | h1 | h1 | h1
  · rw [h1]
    simp only [lookupLoop, h]
    rw [if_neg (by omega), if_pos (by omega)]
  all_goals
    rw [h1] at hm ⊢
    simp only [List.mem_cons, List.not_mem_nil, or_false] at hm
    rcases hm with rfl | rfl | rfl <;>
      simp_all [TypeId.size, structSize, FTy.size] <;> subst h <;> rfl

/-- Every registered id fits the width of its lingo. -/
theorem id_fits (t : TypeId) : t.lingo = 0x04 ∨ t.cmd.toNat < 256 := by
  have : ∀ t ∈ TypeId.all, t.lingo = 0x04 ∨ t.cmd.toNat < 256 := by decide +kernel
  exact this t t.mem_all

end Ipod
