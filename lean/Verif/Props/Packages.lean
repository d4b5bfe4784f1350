import Verif.Spec.Packages
import Verif.Lemmas.RealRegistry
import Verif.Props.Serde

/-! # Property C99: the lingo packages are independent of each other -/

namespace Props
open Go Spec Ipod

/-- What a package registers. -/
def regsOf (p : Pkg) : List (UInt32 × TypeId) := callRegistrations p.lingo p.fields

theorem imported_eq (pkgs : List Pkg) : imported pkgs = Registry.empty.storeAll (pkgs.flatMap regsOf) := by
  have : ∀ r : Registry TypeId, pkgs.foldl Pkg.init r = r.storeAll (pkgs.flatMap regsOf) := by
    induction pkgs with
    | nil => intro r; rfl
    | cons p ps ih =>
      intro r
      rw [List.foldl_cons, ih, Pkg.init, registerLingos_eq]
      simp [Registry.storeAll, regsOf, List.flatMap_cons]
  exact this _

theorem regsOf_eq (p : Pkg) : regsOf p = (TypeId.all.filter fun t => pkgOf t = p).map fun t => (t.id, t) := by
  have h : TypeId.all.filter (fun t => pkgOf t = p) = p.fields.map (·.2) := by cases p <;> decide +kernel
  rw [h, regsOf]
  cases p <;> simp only [Pkg.fields, callRegistrations_map, List.map_map] <;> rfl

theorem lingo_pkgOf (t : TypeId) : t.lingo = lingoOf (pkgOf t) := by cases t <;> rfl

theorem lingoOf_inj {p q : Pkg} (h : lingoOf p = lingoOf q) : p = q := by
  cases p <;> cases q <;> first | rfl | cases h

/-- What is registered under an id by packages imported once each. -/
theorem candidates_imported {pkgs : List Pkg} (hn : pkgs.Nodup) (id : UInt32) :
    candidates (pkgs.flatMap regsOf) id = if (∃ p ∈ pkgs, lingoOf p = LingoCmdID.lingoID id) then cands id else [] := by
  have one : ∀ p, candidates (regsOf p) id = if lingoOf p = LingoCmdID.lingoID id then cands id else [] := by
    intro p
    rw [regsOf_eq]
    simp only [candidates, List.filter_map, List.map_map, cands, List.filter_filter]
    rw [show ((fun x : UInt32 × TypeId => x.2) ∘ fun t => (t.id, t)) = _root_.id from rfl, List.map_id]
    split
    · rename_i h
      apply List.filter_congr
      intro t _
      have : t.id = id → pkgOf t = p := by
        rintro rfl
        rw [TypeId.id, lingoID_idOf, lingo_pkgOf] at h
        exact (lingoOf_inj h).symm
      by_cases ht : t.id = id
      · simp [ht, this ht]
      · simp [ht]
    · rename_i h
      rw [List.filter_eq_nil_iff]
      intro t _ ht
      simp only [Function.comp_apply, Bool.and_eq_true, decide_eq_true_eq] at ht
      apply h
      rw [← ht.1, ← ht.2, TypeId.id, lingoID_idOf, lingo_pkgOf]
  induction pkgs with
  | nil => simp [candidates]
  | cons p ps ih =>
    obtain ⟨h1, h2⟩ := List.nodup_cons.1 hn
    have e : candidates ((p :: ps).flatMap regsOf) id = candidates (regsOf p) id ++ candidates (ps.flatMap regsOf) id := by
      simp [candidates, List.flatMap_cons]
    rw [e, one, ih h2]
    by_cases hp : lingoOf p = LingoCmdID.lingoID id
    · have : ¬ ∃ q ∈ ps, lingoOf q = LingoCmdID.lingoID id := by
        rintro ⟨q, hq, hl⟩
        exact h1 (lingoOf_inj (hp.trans hl.symm) ▸ hq)
      rw [if_pos hp, if_neg this, if_pos ⟨p, by simp, hp⟩, List.append_nil]
    · rw [if_neg hp, List.nil_append]
      by_cases hq : ∃ q ∈ ps, lingoOf q = LingoCmdID.lingoID id
      · obtain ⟨q, hq, hl⟩ := hq
        rw [if_pos ⟨q, hq, hl⟩, if_pos ⟨q, by simp [hq], hl⟩]
      · rw [if_neg hq, if_neg]
        rintro ⟨q, hm, hl⟩
        rcases List.mem_cons.1 hm with rfl | hm
        · exact hp hl
        · exact hq ⟨q, hm, hl⟩

theorem lookup_imported {pkgs : List Pkg} (hn : pkgs.Nodup) (id : UInt32) (n : Nat) (d : Bool) :
    (imported pkgs).lookup TypeId.size id n d =
      if (∃ p ∈ pkgs, lingoOf p = LingoCmdID.lingoID id) then registry.lookup TypeId.size id n d else none := by
  rw [Registry.lookup, Registry.lookup, imported_eq, storeAll_candidates, candidates_imported hn, mapGet_registry]
  by_cases h : ∃ p ∈ pkgs, lingoOf p = LingoCmdID.lingoID id
  · rw [if_pos h, if_pos h]
    by_cases hc : cands id = [] <;> simp [hc, Registry.empty, mapGet]
  · rw [if_neg h, if_neg h]
    simp [Registry.empty, mapGet]

theorem lookupID_imported {pkgs : List Pkg} (hn : pkgs.Nodup) (t : TypeId) :
    (imported pkgs).lookupID t = if pkgOf t ∈ pkgs then some t.id else none := by
  rw [imported_eq]
  have hm : ∀ x, x ∈ (pkgs.flatMap regsOf).map (·.2) ↔ pkgOf x ∈ pkgs := by
    intro x
    simp only [List.mem_map, List.mem_flatMap, regsOf_eq, List.mem_filter, decide_eq_true_eq]
    constructor
    · rintro ⟨_, ⟨p, hp, t, ⟨_, rfl⟩, rfl⟩, rfl⟩; exact hp
    · intro h; exact ⟨(x.id, x), ⟨pkgOf x, h, x, ⟨x.mem_all, rfl⟩, rfl⟩, rfl⟩
  split
  · rename_i h
    apply storeAll_lookupID
    · have one : ∀ p, (regsOf p).map (·.2) = TypeId.all.filter fun t => pkgOf t = p := by
        intro p
        rw [regsOf_eq, List.map_map, show ((fun x : UInt32 × TypeId => x.2) ∘ fun t => (t.id, t)) = _root_.id from rfl, List.map_id]
      rw [List.map_flatMap]
      simp only [one]
      rw [List.nodup_iff_pairwise_ne, List.pairwise_flatMap]
      refine ⟨fun p _ => (TypeId.all_nodup.filter _), ?_⟩
      refine hn.imp ?_
      intro p q hpq x hx y hy he
      subst he
      simp only [List.mem_filter, decide_eq_true_eq] at hx hy
      exact hpq (hx.2.symm.trans hy.2)
    · simp only [List.mem_flatMap, regsOf_eq, List.mem_map, List.mem_filter, decide_eq_true_eq]
      exact ⟨pkgOf t, h, t, ⟨t.mem_all, rfl⟩, rfl⟩
  · rename_i h
    rw [storeAll_lookupID_none _ _ _ (fun hh => h ((hm t).1 hh))]
    rfl

/-- Two registries that find the same decode in the same way. -/
theorem unmarshalCmdIn_congr {reg : Registry TypeId} {m : Bool} {pkt : Bytes}
    (h : ∀ id r, unmarshalLingoCmdID pkt = (.ok id, r) → ∀ d, reg.lookup TypeId.size id r.length d = registry.lookup TypeId.size id r.length d) :
    unmarshalCmdIn reg m pkt = unmarshalCmd m pkt := by
  rw [unmarshalCmdIn, unmarshalCmd]
  cases hu : unmarshalLingoCmdID pkt with
  | mk x r =>
    cases x with
    | error e => rfl
    | ok id =>
      simp only [h id r hu]
      rfl

theorem unmarshalLingoCmdID_lingo {pkt r : Bytes} {id : UInt32} (h : unmarshalLingoCmdID pkt = (.ok id, r)) :
    ∃ l r', pkt = l :: r' ∧ LingoCmdID.lingoID id = l := by
  rw [unmarshalLingoCmdID_eq] at h
  match pkt with
  | [] => cases h
  | l :: r' =>
    refine ⟨l, r', rfl, ?_⟩
    simp only at h
    split at h
    · match r' with
      | [] => cases h
      | [_] => cases h
      | x :: y :: r =>
        simp only [Prod.mk.injEq, Except.ok.injEq] at h
        rw [← h.1, lingoID_idOf]
    · match r' with
      | [] => cases h
      | x :: r =>
        simp only [Prod.mk.injEq, Except.ok.injEq] at h
        rw [← h.1, lingoID_idOf]

/-- C99. A program decodes the packets of the lingos it imports as one that imports all of them. -/
theorem C99_decoded (pkgs : List Pkg) (hn : pkgs.Nodup) (p : Pkg) (hp : p ∈ pkgs) (m : Bool) (body : Bytes) :
    unmarshalCmdIn (imported pkgs) m (lingoOf p :: body) = unmarshalCmd m (lingoOf p :: body) := by
  apply unmarshalCmdIn_congr
  intro id r h d
  obtain ⟨l, r', he, hl⟩ := unmarshalLingoCmdID_lingo h
  injection he with h1 _
  rw [lookup_imported hn, if_pos ⟨p, hp, by rw [hl, h1]⟩]

/-- C99. All other commands it takes for unknown ones, whose ids and bodies it keeps. -/
theorem C99_unknown (pkgs : List Pkg) (hn : pkgs.Nodup) (lingo : UInt8) (cmd : UInt16) (hl : lingo = 0x04 ∨ cmd.toNat < 256)
    (h : ∀ p ∈ pkgs, lingoOf p ≠ lingo) (m : Bool) (body : Bytes) :
    unmarshalCmdIn (imported pkgs) m (idBytes lingo cmd ++ body) =
      .ret ((switchOfId (idOf lingo cmd)).getD m, ⟨idOf lingo cmd, none, .unknown body⟩, some .unknownCmd) := by
  rw [unmarshalCmdIn, unmarshalLingoCmdID_idBytes lingo cmd hl]
  simp only
  rw [lookup_imported hn, if_neg]
  · simp only
    rw [switch_eq]
  · rintro ⟨p, hp, he⟩
    exact h p hp (he.trans (lingoID_idOf lingo cmd))

/-- C99. It sends the messages of the packages it imports as any other program does. -/
theorem C99_sent (pkgs : List Pkg) (hn : pkgs.Nodup) (t : TypeId) (hp : pkgOf t ∈ pkgs) (v : t.Val) (req : Command)
    (counter : UInt32) (out : List Command) :
    buildCommandIn (imported pkgs) (.ptr t v) = buildCommand (.ptr t v) ∧
    respondIn (imported pkgs) req out (.ptr t v) = respond req out (.ptr t v) ∧
    sendIn (imported pkgs) counter out (.ptr t v) = send counter out (.ptr t v) := by
  have e : buildCommandIn (imported pkgs) (.ptr t v) = buildCommand (.ptr t v) := by
    simp only [buildCommandIn, buildCommand, lookupID_imported hn, if_pos hp, lookupID_eq]
  refine ⟨e, ?_, ?_⟩
  · rw [respondIn, respond, e]; rfl
  · rw [sendIn, send, e]; rfl

/-- C99. A message of another package is refused: nothing is handed to the writer, and no transaction used. -/
theorem C99_refused (pkgs : List Pkg) (hn : pkgs.Nodup) (t : TypeId) (hp : pkgOf t ∉ pkgs) (v : t.Val) (req : Command)
    (counter : UInt32) (out : List Command) :
    buildCommandIn (imported pkgs) (.ptr t v) = .ret (.error .payloadNotKnown) ∧
    respondIn (imported pkgs) req out (.ptr t v) = .ret out ∧
    sendIn (imported pkgs) counter out (.ptr t v) = .ret (counter, out) := by
  have e : buildCommandIn (imported pkgs) (.ptr t v) = .ret (.error .payloadNotKnown) := by
    simp only [buildCommandIn, lookupID_imported hn, if_neg hp]
  refine ⟨e, ?_, ?_⟩
  · rw [respondIn, e]; rfl
  · rw [sendIn, e]; rfl

/-- C99. In which order the packages are initialised does not matter. -/
theorem C99_order (pkgs pkgs' : List Pkg) (hn : pkgs.Nodup) (hp : pkgs.Perm pkgs') :
    unmarshalCmdIn (imported pkgs) = unmarshalCmdIn (imported pkgs') ∧
    buildCommandIn (imported pkgs) = buildCommandIn (imported pkgs') := by
  have hn' : pkgs'.Nodup := hp.nodup hn
  have e1 : ∀ id n d, (imported pkgs).lookup TypeId.size id n d = (imported pkgs').lookup TypeId.size id n d := by
    intro id n d
    rw [lookup_imported hn, lookup_imported hn']
    simp only [hp.mem_iff]
  constructor
  · funext m pkt
    simp only [unmarshalCmdIn, e1]
  · funext x
    cases x with
    | nil => rfl
    | unknown r => rfl
    | ptr t v => simp only [buildCommandIn, lookupID_imported hn, lookupID_imported hn', hp.mem_iff]

example (req : Command) (out : List Command) :
    buildCommandIn (imported [.general, .audio]) (.ptr (.gen .RequestiPodName) ()) = buildCommand (.ptr (.gen .RequestiPodName) ()) ∧
    respondIn (imported [.audio]) req out (.ptr (.gen .RequestiPodName) ()) = .ret out ∧
    unmarshalCmdIn (imported [.general, .audio]) = unmarshalCmdIn (imported [.audio, .general]) :=
  ⟨(C99_sent [.general, .audio] (by decide) (.gen .RequestiPodName) (by decide) () req 0 out).1,
    (C99_refused [.audio] (by decide) (.gen .RequestiPodName) (by decide) () req 0 out).2.1,
    (C99_order [.general, .audio] [.audio, .general] (by decide) (.swap _ _ _)).1⟩

/-- C99. The program of cmd/ipod is the one that imports all of them. -/
theorem C99_all : unmarshalCmdIn (imported [.audio, .dispRemote, .extRemote, .general, .simpleRemote]) = unmarshalCmd ∧
    buildCommandIn (imported [.audio, .dispRemote, .extRemote, .general, .simpleRemote]) = buildCommand := by
  have : imported [.audio, .dispRemote, .extRemote, .general, .simpleRemote] = registry := by rw [registry_eq_calls]; rfl
  rw [this]
  constructor
  · funext m pkt; exact unmarshalCmdIn_congr fun _ _ _ _ => rfl
  · funext x; cases x <;> rfl

/-- A program with the general and the audio lingo only: a message of the display remote is unknown to it. -/
example : ([.general, .audio] : List Pkg).Nodup ∧ (∀ p ∈ ([.general, .audio] : List Pkg), lingoOf p ≠ 0x03) ∧
    unmarshalCmdIn (imported [.general, .audio]) true [0x03, 0x08, 0x00, 0x01] =
      .ret (true, ⟨idOf 0x03 0x08, none, .unknown [0x00, 0x01]⟩, some .unknownCmd) ∧
    unmarshalCmdIn (imported [.general, .audio]) true [0x00, 0x07, 0x00, 0x01] = unmarshalCmd true [0x00, 0x07, 0x00, 0x01] :=
  ⟨by decide, by decide, C99_unknown _ (by decide) 0x03 0x08 (by decide) (by decide) _ _, C99_decoded _ (by decide) .general (by decide) _ _⟩

end Props
