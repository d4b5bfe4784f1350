import Verif.Props.Text

/-! The listing of the registered commands, of this program. -/

namespace Props
open Go Spec Ipod

/-- The lines of ids that are registered. -/
def linesOf {T : Type} (regs : List (UInt32 × T)) (name : T → Bytes) (ids : List (UInt8 × UInt16)) : List Bytes :=
  ids.map fun x => LingoCmdID.goString (idOf x.1 x.2) ++ [0x09] ++
    (match candidates regs (idOf x.1 x.2) with | t :: _ => name t | [] => [])

theorem listingLines_of {T : Type} (regs : List (UInt32 × T)) (name : T → Bytes) (ids : List (UInt8 × UInt16))
    (h : ids.all (fun x => !(candidates regs (idOf x.1 x.2)).isEmpty) = true) :
    ListingLines regs name (ids.map fun x => idOf x.1 x.2) ((linesOf regs name ids).flatMap fun l => l ++ [0x0A]) := by
  induction ids with
  | nil => exact .nil
  | cons x ids ih =>
    simp only [List.all_cons, Bool.and_eq_true] at h
    rw [List.map_cons]
    unfold linesOf
    rw [List.map_cons, List.flatMap_cons]
    cases hc : candidates regs (idOf x.1 x.2) with
    | nil => rw [hc] at h; exact absurd h.1 (by simp)
    | cons t ts => exact .cons hc ⟨_, idOf_goString _ _, rfl⟩ (ih h.2)

/-- Lingos and commands of the registered types, the lingos in increasing order, every command once. -/
@[irreducible] def programIds : List (UInt8 × UInt16) :=
  ((GenT.all.map fun t : GenT => (((0x00 : UInt8), t.cmdID) : UInt8 × UInt16)) ++ (SimT.all.map fun t : SimT => (((0x02 : UInt8), t.cmdID) : UInt8 × UInt16)) ++
    (DispT.all.map fun t : DispT => (((0x03 : UInt8), t.cmdID) : UInt8 × UInt16)) ++ (ExtT.all.map fun t : ExtT => (((0x04 : UInt8), t.cmdID) : UInt8 × UInt16)) ++
    (AudT.all.map fun t : AudT => (((0x0A : UInt8), t.cmdID) : UInt8 × UInt16))).eraseDups

theorem programIds_sorted : (programIds.map fun x => idOf x.1 x.2).Pairwise (· < ·) := by decide +kernel

theorem programIds_registered : (programIds.all fun x => TypeId.all.any fun t => t.id == idOf x.1 x.2) = true := by
  decide +kernel

theorem programIds_complete : (TypeId.all.all fun t => programIds.any fun x => t.id == idOf x.1 x.2) = true := by
  decide +kernel

theorem programIds_candidates :
    (programIds.all fun x => !(candidates (registrations registryCalls) (idOf x.1 x.2)).isEmpty) = true := by
  decide +kernel

/-- First registered type. -/
def nameOf (x : UInt8 × UInt16) : String :=
  match candidates (registrations registryCalls) (idOf x.1 x.2) with | t :: _ => t.typeName | [] => ""

theorem programIds_text : (programIds.map fun x => LingoCmdID.goString (idOf x.1 x.2)) = programListing.map fun l => ascii l.1 := by
  decide +kernel

theorem programIds_names : programIds.map nameOf = programListing.map (·.2) := by
  decide +kernel

theorem lines_columns (ids : List (UInt8 × UInt16)) (listing : List (String × String))
    (h1 : (ids.map fun x => LingoCmdID.goString (idOf x.1 x.2)) = listing.map fun l => ascii l.1)
    (h2 : ids.map nameOf = listing.map (·.2))
    (hc : (ids.all fun x => !(candidates (registrations registryCalls) (idOf x.1 x.2)).isEmpty) = true) :
    linesOf (registrations registryCalls) (fun t : TypeId => ascii t.typeName) ids =
      listing.map fun l => ascii l.1 ++ [0x09] ++ ascii l.2 := by
  have hl : ids.length = listing.length := by simpa using congrArg List.length h2
  rw [List.all_eq_true] at hc
  apply List.ext_getElem (by simpa [linesOf] using hl)
  intro k k1 k2
  have k1' : k < ids.length := by simpa [linesOf] using k1
  have k2' : k < listing.length := by omega
  have e1 := congrArg (·[k]?) h1
  have e2 := congrArg (·[k]?) h2
  simp only [List.getElem?_map, List.getElem?_eq_getElem k1', List.getElem?_eq_getElem k2', Option.map_some,
    Option.some.injEq] at e1 e2
  have hc := hc _ (List.getElem_mem k1')
  simp only [linesOf, List.getElem_map]
  rw [← e1, ← e2]
  unfold nameOf
  cases h : candidates (registrations registryCalls) (idOf ids[k].1 ids[k].2) with
  | nil => rw [h] at hc; cases hc
  | cons t ts => rfl

theorem listing_intro {T : Type} {regs : List (UInt32 × T)} {name : T → Bytes} {ids : List UInt32} {s : Bytes}
    (h1 : ids.Pairwise (· < ·)) (h2 : ∀ id, id ∈ ids ↔ ∃ t, (id, t) ∈ regs) (h3 : ListingLines regs name ids s) :
    Listing regs name s := ⟨ids, h1, h2, h3⟩

theorem listing_of (ids : List (UInt8 × UInt16)) (listing : List (String × String))
    (hs : (ids.map fun x => idOf x.1 x.2).Pairwise (· < ·))
    (hr : (ids.all fun x => TypeId.all.any fun t => t.id == idOf x.1 x.2) = true)
    (hm : (TypeId.all.all fun t => ids.any fun x => t.id == idOf x.1 x.2) = true)
    (h1 : (ids.map fun x => LingoCmdID.goString (idOf x.1 x.2)) = listing.map fun l => ascii l.1)
    (h2 : ids.map nameOf = listing.map (·.2))
    (hc : (ids.all fun x => !(candidates (registrations registryCalls) (idOf x.1 x.2)).isEmpty) = true) :
    Listing (registrations registryCalls) (fun t : TypeId => ascii t.typeName)
      (listing.flatMap fun line => ascii line.1 ++ [0x09] ++ ascii line.2 ++ [0x0A]) := by
  refine listing_intro hs (fun id => ?_) ?_
  · rw [registrations_eq]
    simp only [List.all_eq_true, List.any_eq_true, beq_iff_eq] at hr hm
    constructor
    · intro h
      obtain ⟨x, hx, rfl⟩ := List.mem_map.1 h
      obtain ⟨t, ht, e⟩ := hr x hx
      exact ⟨t, List.mem_map.2 ⟨t, ht, by rw [e]⟩⟩
    · rintro ⟨t, ht⟩
      obtain ⟨t', ht', e⟩ := List.mem_map.1 ht
      cases e
      obtain ⟨x, hx, e⟩ := hm _ ht'
      exact List.mem_map.2 ⟨x, hx, e.symm⟩
  · have h := listingLines_of (registrations registryCalls) (fun t : TypeId => ascii t.typeName) ids hc
    rw [lines_columns ids listing h1 h2 hc, List.flatMap_map] at h
    exact h

theorem program_listing : Listing (registrations registryCalls) (fun t : TypeId => ascii t.typeName)
    (programListing.flatMap fun line => ascii line.1 ++ [0x09] ++ ascii line.2 ++ [0x0A]) :=
  listing_of programIds programListing programIds_sorted programIds_registered programIds_complete programIds_text
    programIds_names programIds_candidates

/-- C60. The listing of the program itself. -/
theorem C60_program (text : Bytes) :
    DumpLingos (fun t : TypeId => ascii t.typeName) registry text ↔
      text = programListing.flatMap fun line => ascii line.1 ++ [0x09] ++ ascii line.2 ++ [0x0A] := by
  obtain ⟨text0, h0, hu⟩ := C60_deterministic registryCalls fun t : TypeId => ascii t.typeName
  have e0 := listing_unique (C60_listing _ _ _ h0) program_listing
  rw [registry_eq_calls, ← e0]
  exact ⟨hu text, fun h => h ▸ h0⟩

/-- Two commands of two lingos, registered in decreasing order. -/
example (text : Bytes) (h : DumpLingos ascii
    (Registry.empty.registerCalls [((4 : UInt8), [(some 2, "p.C")]), (0, [(some 2, "p.A"), (some 2, "p.B")])]) text) :
    text = ascii "(0x00|0x02)\tp.A\n(0x04|0x0002)\tp.C\n" := by
  refine listing_unique (C60_listing _ _ _ h) ⟨[2, 0x40002], by decide +kernel, fun id => ?_, ?_⟩
  · simp only [List.mem_cons, List.not_mem_nil, or_false]
    have : registrations [((4 : UInt8), [(some (2 : UInt16), "p.C")]), (0, [(some 2, "p.A"), (some 2, "p.B")])] =
      [(0x40002, "p.C"), (2, "p.A"), (2, "p.B")] := by decide +kernel
    rw [this]
    simp only [List.mem_cons, List.not_mem_nil, or_false, Prod.mk.injEq]
    constructor
    · rintro (h | h)
      · exact ⟨"p.A", .inr (.inl ⟨h, rfl⟩)⟩
      · exact ⟨"p.C", .inl ⟨h, rfl⟩⟩
    · rintro ⟨t, h | h | h⟩
      · exact .inr h.1
      · exact .inl h.1
      · exact .inl h.1
  · have := listingLines_of (registrations [((4 : UInt8), [(some (2 : UInt16), "p.C")]), (0, [(some 2, "p.A"), (some 2, "p.B")])])
      ascii [(0, 2), (4, 2)] (by decide +kernel)
    exact cast (congrArg _ (by decide +kernel)) this

end Props
