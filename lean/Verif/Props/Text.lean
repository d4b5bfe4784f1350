import Verif.Lemmas.Text

namespace Props
open Go Spec Ipod

/-! ## C70 -/

theorem lingoBit_text (i : UInt32) : EnumText lingoBits "LingoBit" i.toNat (lingoBitString i) := by
  unfold lingoBitString
  iterate 10
    split
    · rename_i h
      subst h
      exact .named (by decide +kernel)
  refine unnamed_text (Nat.lt_trans i.toNat_lt (by decide)) fun x hx e => ?_
  have e' : i = UInt32.ofNat x.1 := by rw [e, UInt32.ofNat_toNat]
  simp only [lingoBits, List.mem_cons, List.not_mem_nil, or_false] at hx
  rcases hx with rfl | rfl | rfl | rfl | rfl | rfl | rfl | rfl | rfl | rfl <;> contradiction

/-- A `String` method that looks its value up in a map. -/
theorem enumMap (map : List (UInt32 × Nat × Nat)) (names : Bytes) (tbl : List (Nat × String)) (ty : String)
    (h1 : map.map (fun x => (x.1.toNat, substr names x.2.1 x.2.2)) = tbl.map fun y => (y.1, ascii y.2)) (i : UInt32) :
    EnumText tbl ty i.toNat (match mapGet map i with | some (a, b) => substr names a b | none => unnamed ty i.toNat) := by
  cases h : mapGet map i with
  | some x =>
    obtain ⟨a, b⟩ := x
    have : (i.toNat, substr names a b) ∈ tbl.map fun y => (y.1, ascii y.2) := by
      rw [← h1]
      exact List.mem_map.2 ⟨_, mapGet_some_mem h, rfl⟩
    obtain ⟨y, hy, e⟩ := List.mem_map.1 this
    simp only [Prod.mk.injEq] at e
    simp only
    rw [← e.1, ← e.2]
    exact .named hy
  | none =>
    refine unnamed_text (Nat.lt_trans i.toNat_lt (by decide)) fun x hx e => ?_
    have : (x.1, ascii x.2) ∈ map.map (fun x => (x.1.toNat, substr names x.2.1 x.2.2)) := by
      rw [h1]
      exact List.mem_map.2 ⟨_, hx, rfl⟩
    obtain ⟨y, hy, e'⟩ := List.mem_map.1 this
    simp only [Prod.mk.injEq] at e'
    exact mapGet_none_mem h y hy (UInt32.toNat_inj.1 (e'.1.trans e))

/-- Start and end of consecutive pieces. -/
def cuts : Nat → List Bytes → List (Nat × Nat)
  | _, [] => []
  | o, p :: ps => (o, o + p.length) :: cuts (o + p.length) ps

theorem cuts_eq (pre : Bytes) (ps : List Bytes) :
    (cuts pre.length ps).map (fun c => ((pre ++ ps.flatten).take c.2).drop c.1) = ps := by
  induction ps generalizing pre with
  | nil => rfl
  | cons p ps ih =>
    have := ih (pre ++ p)
    rw [List.length_append, List.append_assoc] at this
    rw [cuts, List.map_cons, List.flatten_cons, this]
    congr 1
    rw [← List.append_assoc, List.take_append_of_le_length (by simp), List.take_of_length_le (by simp)]
    simp

theorem map_names (map : List (UInt32 × Nat × Nat)) (names : Bytes) (tbl : List (Nat × String))
    (h1 : names = (tbl.map fun y => ascii y.2).flatten) (h2 : map.map (·.2) = cuts 0 (tbl.map fun y => ascii y.2))
    (h3 : map.map (·.1.toNat) = tbl.map (·.1)) :
    map.map (fun x => (x.1.toNat, substr names x.2.1 x.2.2)) = tbl.map fun y => (y.1, ascii y.2) := by
  have h4 := cuts_eq [] (tbl.map fun y => ascii y.2)
  rw [List.nil_append, List.length_nil, ← h1, ← h2, List.map_map] at h4
  have hl : map.length = tbl.length := by simpa using congrArg List.length h3
  apply List.ext_getElem (by simpa using hl)
  intro k k1 k2
  have k1' : k < map.length := by simpa using k1
  have k2' : k < tbl.length := by simpa using k2
  have e3 := congrArg (·[k]?) h3
  have e4 := congrArg (·[k]?) h4
  simp only [List.getElem?_map, List.getElem?_eq_getElem k1', List.getElem?_eq_getElem k2', Option.map_some, Option.some.injEq,
    Function.comp] at e3 e4
  simp only [List.getElem_map, Prod.mk.injEq]
  exact ⟨e3, e4⟩

theorem contextButtonMap_names : contextButtonMap.map (fun x => (x.1.toNat, substr contextButtonNames x.2.1 x.2.2)) =
    contextButtonBits.map fun y => (y.1, ascii y.2) :=
  map_names contextButtonMap contextButtonNames contextButtonBits (by decide +kernel) (by decide +kernel) (by decide +kernel)

theorem contextButton_text (i : UInt32) : EnumText contextButtonBits "ContextButtonBit" i.toNat (contextButtonBitString i) :=
  enumMap contextButtonMap contextButtonNames contextButtonBits "ContextButtonBit" contextButtonMap_names i

theorem accCap_text (i : UInt32) : EnumText accCapBits "AccCapBit" i.toNat (accCapBitString i) := by
  unfold accCapBitString
  split
  · rename_i h
    have : i = 1 ∨ i = 2 := by
      rw [UInt32.le_iff_toNat_le, UInt32.le_iff_toNat_le] at h
      have h1 : UInt32.toNat 1 = 1 := rfl
      have h2 : UInt32.toNat 2 = 2 := rfl
      rw [h1, h2] at h
      rcases (show i.toNat = 1 ∨ i.toNat = 2 by omega) with h | h
      · exact .inl (UInt32.toNat_inj.1 h)
      · exact .inr (UInt32.toNat_inj.1 h)
    rcases this with rfl | rfl
    · exact cast (congrArg _ (by decide +kernel)) (EnumText.named (tbl := accCapBits) (ty := "AccCapBit") (n := 1)
        (name := "AccCapAnalogLineOut") (by decide +kernel))
    · exact cast (congrArg _ (by decide +kernel)) (EnumText.named (tbl := accCapBits) (ty := "AccCapBit") (n := 2)
        (name := "AccCapAnalogLineIn") (by decide +kernel))
  · rename_i h0
    iterate 4
      split
      · rename_i h
        subst h
        exact .named (by decide +kernel)
    refine unnamed_text (Nat.lt_trans i.toNat_lt (by decide)) fun x hx e => ?_
    have e' : i = UInt32.ofNat x.1 := by rw [e, UInt32.ofNat_toNat]
    simp only [accCapBits, List.mem_cons, List.not_mem_nil, or_false] at hx
    rcases hx with rfl | rfl | rfl | rfl | rfl | rfl
    · exact h0 (by rw [e']; decide)
    · exact h0 (by rw [e']; decide)
    all_goals contradiction

/-- C70. Every value of every enumeration with a text is shown by its name, or by type and number if it has none. -/
theorem C70_names :
    (∀ i : UInt32, EnumText lingoBits "LingoBit" i.toNat (lingoBitString i)) ∧
    (∀ i : UInt32, EnumText contextButtonBits "ContextButtonBit" i.toNat (contextButtonBitString i)) ∧
    (∀ i : UInt32, EnumText accCapBits "AccCapBit" i.toNat (accCapBitString i)) ∧
    (∀ i : UInt8, EnumText accInfoTypes "AccInfoType" i.toNat (accInfoTypeString i)) ∧
    (∀ i : UInt8, EnumText infoTypes "InfoType" i.toNat (infoTypeString i)) ∧
    (∀ i : UInt8, EnumText playStatuses "PlayStatusType" i.toNat (playStatusTypeString i)) ∧
    (∀ i : UInt8, EnumText trackInfoTypes "TrackInfoType" i.toNat (trackInfoTypeString i)) :=
  ⟨lingoBit_text, contextButton_text, accCap_text, enum8 _ _ _ (by decide +kernel), enum8 _ _ _ (by decide +kernel),
    enum8 _ _ _ (by decide +kernel), enum8 _ _ _ (by decide +kernel)⟩

/-- C70. Distinct values have distinct texts. -/
theorem C70_names_distinct :
    (∀ i j : UInt32, lingoBitString i = lingoBitString j → i = j) ∧
    (∀ i j : UInt32, contextButtonBitString i = contextButtonBitString j → i = j) ∧
    (∀ i j : UInt32, accCapBitString i = accCapBitString j → i = j) ∧
    (∀ i j : UInt8, accInfoTypeString i = accInfoTypeString j → i = j) ∧
    (∀ i j : UInt8, infoTypeString i = infoTypeString j → i = j) ∧
    (∀ i j : UInt8, playStatusTypeString i = playStatusTypeString j → i = j) ∧
    (∀ i j : UInt8, trackInfoTypeString i = trackInfoTypeString j → i = j) := by
  have h32 : ∀ {f : UInt32 → Bytes} {tbl : List (Nat × String)} {ty : String}, goodNames tbl = true →
      (∀ i : UInt32, EnumText tbl ty i.toNat (f i)) → ∀ i j : UInt32, f i = f j → i = j := by
    intro f tbl ty hg h i j e
    have h1 := h i
    rw [e] at h1
    exact UInt32.toNat_inj.1 (enumText_fun hg h1 (h j))
  have h8 : ∀ {f : UInt8 → Bytes} {tbl : List (Nat × String)} {ty : String}, goodNames tbl = true →
      (∀ i : UInt8, EnumText tbl ty i.toNat (f i)) → ∀ i j : UInt8, f i = f j → i = j := by
    intro f tbl ty hg h i j e
    have h1 := h i
    rw [e] at h1
    exact UInt8.toNat_inj.1 (enumText_fun hg h1 (h j))
  obtain ⟨a, b, c, d, e, f, g⟩ := C70_names
  exact ⟨h32 (by decide +kernel) a, h32 (by decide +kernel) b, h32 (by decide +kernel) c, h8 (by decide +kernel) d,
    h8 (by decide +kernel) e, h8 (by decide +kernel) f, h8 (by decide +kernel) g⟩

example : infoTypeString 0x0B = ascii "InfoTypeBacklight" := by decide +kernel
example : infoTypeString 0x0A = ascii "InfoType(10)" := by decide +kernel
example : contextButtonBitString 0x08000000 = ascii "ContextButtonBit(134217728)" := by decide +kernel

/-! ## C62 -/

/-- C62. The text of a mask lists exactly the names of the set bits, lowest first. -/
theorem C62_mask_text (m : UInt32) :
    MaskText lingoBits "LingoBit" m.toNat (lingoMaskString m) ∧
    MaskText contextButtonBits "ContextButtonBit" m.toNat (contextButtonMaskString m) :=
  ⟨mask_text _ _ _ lingoBit_text m, mask_text _ _ _ contextButton_text m⟩

/-- C62. Distinct masks have distinct texts. -/
theorem C62_mask_distinct (m m' : UInt32) :
    (lingoMaskString m = lingoMaskString m' → m = m') ∧
    (contextButtonMaskString m = contextButtonMaskString m' → m = m') := by
  refine ⟨fun e => ?_, fun e => ?_⟩
  · have h := (C62_mask_text m).1
    rw [e] at h
    exact UInt32.toNat_inj.1 (maskText_fun (by decide +kernel) (by decide +kernel) h (C62_mask_text m').1)
  · have h := (C62_mask_text m).2
    rw [e] at h
    exact UInt32.toNat_inj.1 (maskText_fun (by decide +kernel) (by decide +kernel) h (C62_mask_text m').2)

example : lingoMaskString 0x413 = ascii "LingoGeneralBit | LingoBit(2) | LingoExtRemoteBit | LingoDigitalAudioBit" := by
  decide +kernel
example : contextButtonMaskString 0 = [] := by decide +kernel

/-! ## C71 -/

theorem idOf_goString (l : UInt8) (c : UInt16) : IdText "(" "|" ")" l c (LingoCmdID.goString (idOf l c)) := by
  have h1 := l.toNat_lt
  have h2 := c.toNat_lt
  refine ⟨_, _, fmtHex_text 2 l.toNat (by omega) (Nat.lt_trans h1 (by decide)),
    fmtHex_text (cmdDigits l) c.toNat (by unfold cmdDigits; split <;> omega) (Nat.lt_trans h2 (by decide)), ?_⟩
  rw [LingoCmdID.goString, lingoID_idOf, cmdID_idOf]
  have : cmdIDLen l * 2 = cmdDigits l := by
    unfold cmdIDLen cmdDigits
    split <;> rfl
  rw [this]

theorem idOf_string (l : UInt8) (c : UInt16) : IdText "" "," "" l c (LingoCmdID.string (idOf l c)) := by
  have h1 := l.toNat_lt
  have h2 := c.toNat_lt
  refine ⟨_, _, fmtHex_text 2 l.toNat (by omega) (Nat.lt_trans h1 (by decide)),
    fmtHex_text (cmdDigits l) c.toNat (by unfold cmdDigits; split <;> omega) (Nat.lt_trans h2 (by decide)), ?_⟩
  rw [LingoCmdID.string, lingoID_idOf, cmdID_idOf]
  have : cmdIDLen l * 2 = cmdDigits l := by
    unfold cmdIDLen cmdDigits
    split <;> rfl
  rw [this]
  have : ascii "" = [] := by decide +kernel
  rw [this, List.nil_append, List.append_nil]

theorem idText_unique {o m c : String} {l : UInt8} {d : UInt16} {s s' : Bytes} (h : IdText o m c l d s) (h' : IdText o m c l d s') :
    s = s' := by
  obtain ⟨a, b, ha, hb, rfl⟩ := h
  obtain ⟨a', b', ha', hb', rfl⟩ := h'
  rw [hexText_unique ha ha', hexText_unique hb hb']

theorem hex_no {w n : Nat} {s : Bytes} (h : HexNumber w n s) (c : UInt8) (hc : digitVal c = none) (hx : c ≠ 0x78) : c ∉ s := by
  obtain ⟨d, h, rfl⟩ := h
  have : ascii "0x" = [0x30, 0x78] := by decide +kernel
  rw [this]
  intro hm
  simp only [List.cons_append, List.nil_append, List.mem_cons] at hm
  rcases hm with rfl | rfl | hm
  · exact absurd hc (by decide)
  · exact hx rfl
  · exact numeral_digits h.1 c hm hc

theorem cut_at {x : UInt8} {a b r r' : Bytes} (ha : x ∉ a) (hb : x ∉ b) (e : a ++ x :: r = b ++ x :: r') : a = b ∧ r = r' := by
  induction a generalizing b with
  | nil =>
    cases b with
    | nil => simpa using e
    | cons y b => simp at e; exact absurd (by simp [e.1]) hb
  | cons z a ih =>
    cases b with
    | nil => simp at e; exact absurd (by simp [e.1]) ha
    | cons y b =>
      simp only [List.cons_append, List.cons.injEq] at e
      obtain ⟨h1, h2⟩ := ih (fun h => ha (by simp [h])) (fun h => hb (by simp [h])) e.2
      exact ⟨by rw [e.1, h1], h2⟩

/-- C71. Both texts of an id show lingo and command in hexadecimal: two digits for the lingo, four for a command of
Extended Remote, two (or as many as needed) for another. -/
theorem C71_id_text (lingo : UInt8) (cmd : UInt16) :
    IdText "(" "|" ")" lingo cmd (LingoCmdID.goString (idOf lingo cmd)) ∧
    IdText "" "," "" lingo cmd (LingoCmdID.string (idOf lingo cmd)) :=
  ⟨idOf_goString lingo cmd, idOf_string lingo cmd⟩

/-- C71. The texts of distinct ids are distinct. -/
theorem C71_id_distinct (l l' : UInt8) (c c' : UInt16) :
    (LingoCmdID.goString (idOf l c) = LingoCmdID.goString (idOf l' c') → l = l' ∧ c = c') ∧
    (LingoCmdID.string (idOf l c) = LingoCmdID.string (idOf l' c') → l = l' ∧ c = c') := by
  have e1 : ascii "(" = [0x28] := by decide +kernel
  have e2 : ascii "|" = [0x7C] := by decide +kernel
  have e3 : ascii ")" = [0x29] := by decide +kernel
  have e4 : ascii "," = [0x2C] := by decide +kernel
  have e5 : ascii "" = [] := by decide +kernel
  have fin : ∀ {w w' : Nat} {a a' b b' : Bytes}, HexNumber 2 l.toNat a → HexNumber 2 l'.toNat a' → HexNumber w c.toNat b →
      HexNumber w' c'.toNat b' → a = a' → b = b' → l = l' ∧ c = c' := by
    intro w w' a a' b b' h1 h2 h3 h4 ea eb
    subst ea eb
    exact ⟨UInt8.toNat_inj.1 (hexText_fun h1 h2), UInt16.toNat_inj.1 (hexText_fun h3 h4)⟩
  refine ⟨fun e => ?_, fun e => ?_⟩
  · obtain ⟨a, b, ha, hb, h⟩ := idOf_goString l c
    obtain ⟨a', b', ha', hb', h'⟩ := idOf_goString l' c'
    rw [h, h', e1, e2, e3] at e
    simp only [List.append_assoc, List.cons_append, List.nil_append, List.cons.injEq, true_and] at e
    obtain ⟨x, y⟩ := cut_at (hex_no ha _ (by decide) (by decide)) (hex_no ha' _ (by decide) (by decide)) e
    exact fin ha ha' hb hb' x (List.append_cancel_right y)
  · obtain ⟨a, b, ha, hb, h⟩ := idOf_string l c
    obtain ⟨a', b', ha', hb', h'⟩ := idOf_string l' c'
    rw [h, h', e4, e5] at e
    simp only [List.append_assoc, List.cons_append, List.nil_append, List.append_nil] at e
    obtain ⟨x, y⟩ := cut_at (hex_no ha _ (by decide) (by decide)) (hex_no ha' _ (by decide) (by decide)) e
    exact fin ha ha' hb hb' x y

/-- C71 (partial). A transaction is shown as a hexadecimal number of four digits by its plain text. Missing: its Go-syntax
text, which is not that number (`C71_trx_go_text_fails`). -/
theorem C71_trx_text_partial (tr : UInt16) :
    HexNumber 4 tr.toNat (trxString tr) ∧ ∀ tr', trxString tr = trxString tr' → tr = tr' := by
  have h : ∀ t : UInt16, HexNumber 4 t.toNat (trxString t) := fun t =>
    fmtHex_text 4 t.toNat (by omega) (Nat.lt_trans t.toNat_lt (by decide))
  refine ⟨h tr, fun tr' e => ?_⟩
  have h1 := h tr
  rw [e] at h1
  exact UInt16.toNat_inj.1 (hexText_fun h1 (h tr'))

theorem flatMap2_length (f : UInt8 → Bytes) (hf : ∀ c, (f c).length = 2) (s : Bytes) : (s.flatMap f).length = 2 * s.length := by
  induction s with
  | nil => rfl
  | cons c s ih => simp [List.flatMap_cons, hf, ih]; omega

/-- C71. The Go-syntax text of a transaction never is its number in hexadecimal: it has fourteen characters. -/
theorem C71_trx_go_text_fails (tr : UInt16) : ¬ HexNumber 4 tr.toNat (trxGoString tr) := by
  intro h
  have h1 := (C71_trx_text_partial tr).1
  have hl : 6 ≤ (trxString tr).length := by
    obtain ⟨d, hd, e⟩ := h1
    have : (ascii "0x").length = 2 := by decide +kernel
    rw [e, List.length_append, this]
    have := hd.2.1
    omega
  have := hexText_unique h h1
  have h2 : (trxGoString tr).length = 2 + 2 * (trxString tr).length := by
    rw [trxGoString, fmtStringHex, if_neg (fun e => by simp [e] at hl)]
    simp only [List.length_cons]
    rw [flatMap2_length _ (fun _ => rfl)]
    omega
  rw [this] at h2
  omega

example : LingoCmdID.goString 0x00040001 = ascii "(0x04|0x0001)" := by decide +kernel
example : LingoCmdID.string 0x00000013 = ascii "0x00,0x13" := by decide +kernel
example : trxString 0x12 = ascii "0x0012" := by decide +kernel
example : trxGoString 0x12 = ascii "0x307830303132" := by decide +kernel

/-! ## C60 -/

theorem keys_mapSet {K V : Type} [DecidableEq K] (m : List (K × V)) (k : K) (v : V) (h : (m.map (·.1)).Nodup) :
    ((mapSet m k v).map (·.1)).Nodup ∧ ∀ x, x ∈ (mapSet m k v).map (·.1) ↔ x = k ∨ x ∈ m.map (·.1) := by
  induction m with
  | nil => simp [mapSet]
  | cons p m ih =>
    obtain ⟨k', v'⟩ := p
    simp only [List.map_cons, List.nodup_cons] at h
    obtain ⟨i1, i2⟩ := ih h.2
    unfold mapSet
    by_cases e : k' = k
    · rw [if_pos e]
      subst e
      exact ⟨by simpa using h, by simp⟩
    · rw [if_neg e]
      refine ⟨?_, fun x => ?_⟩
      · simp only [List.map_cons, List.nodup_cons]
        refine ⟨fun hm => ?_, i1⟩
        rcases (i2 k').1 hm with hm | hm
        · exact e hm
        · exact h.1 hm
      · simp only [List.map_cons, List.mem_cons, i2 x]
        constructor
        · rintro (h | h | h) <;> simp [h]
        · rintro (h | h | h) <;> simp [h]

theorem keys_storeAll {T : Type} [DecidableEq T] (regs : List (UInt32 × T)) (r : Registry T) (h : (r.idToType.map (·.1)).Nodup) :
    ((r.storeAll regs).idToType.map (·.1)).Nodup := by
  induction regs generalizing r with
  | nil => exact h
  | cons p ps ih => exact ih _ (keys_mapSet _ _ _ h).1

theorem mapGet_of_mem {K V : Type} [DecidableEq K] {m : List (K × V)} (h : (m.map (·.1)).Nodup) {k : K} {v : V} (hm : (k, v) ∈ m) :
    mapGet m k = some v := by
  induction m with
  | nil => cases hm
  | cons p m ih =>
    obtain ⟨k', v'⟩ := p
    simp only [List.map_cons, List.nodup_cons] at h
    rw [mapGet]
    rcases List.mem_cons.1 hm with e | hm
    · cases e
      rw [if_pos rfl]
    · rw [if_neg, ih h.2 hm]
      rintro rfl
      exact h.1 (List.mem_map.2 ⟨_, hm, rfl⟩)

/-- Entries of the map after registrations. -/
theorem entries {T : Type} [DecidableEq T] (regs : List (UInt32 × T)) (id : UInt32) (ts : List T) :
    (id, ts) ∈ (Registry.empty.storeAll regs).idToType ↔ candidates regs id = ts ∧ ts ≠ [] := by
  have hn : ((Registry.empty.storeAll regs).idToType.map (·.1)).Nodup := keys_storeAll regs _ List.nodup_nil
  have hc := storeAll_candidates (Registry.empty (T := T)) regs id
  constructor
  · intro h
    rw [mapGet_of_mem hn h] at hc
    split at hc
    · cases hc
    · rename_i hne
      simp only [Registry.empty, mapGet, Option.getD_none, List.nil_append, Option.some.injEq] at hc
      rw [hc]
      exact ⟨rfl, hne⟩
  · rintro ⟨rfl, h⟩
    rw [if_neg h] at hc
    simp only [Registry.empty, mapGet, Option.getD_none, List.nil_append] at hc
    exact mapGet_some_mem hc

theorem candidates_ne_nil {T : Type} (regs : List (UInt32 × T)) (id : UInt32) : candidates regs id ≠ [] ↔ ∃ t, (id, t) ∈ regs := by
  constructor
  · intro h
    obtain ⟨t, ht⟩ := List.exists_mem_of_ne_nil _ h
    simp only [candidates, List.mem_map, List.mem_filter, decide_eq_true_eq] at ht
    obtain ⟨x, ⟨hx, rfl⟩, rfl⟩ := ht
    exact ⟨x.2, hx⟩
  · rintro ⟨t, ht⟩ h
    have : t ∈ candidates regs id := by
      simp only [candidates, List.mem_map, List.mem_filter, decide_eq_true_eq]
      exact ⟨_, ⟨ht, rfl⟩, rfl⟩
    rw [h] at this
    cases this

theorem registered_id {T : Type} (calls : List (UInt8 × List (Option UInt16 × T))) (id : UInt32) (t : T)
    (h : (id, t) ∈ registrations calls) : ∃ l c, id = idOf l c := by
  simp only [registrations, List.mem_flatten, List.mem_map] at h
  obtain ⟨_, ⟨c, _, rfl⟩, h⟩ := h
  have : ∀ fs : List (Option UInt16 × T), (id, t) ∈ callRegistrations c.1 fs → ∃ l d, id = idOf l d := by
    intro fs
    induction fs with
    | nil => intro h; cases h
    | cons f fs ih =>
      obtain ⟨o, x⟩ := f
      cases o with
      | none => intro h; cases h
      | some d =>
        intro h
        rcases List.mem_cons.1 h with h | h
        · cases h
          exact ⟨_, _, rfl⟩
        · exact ih h
  exact this _ h

theorem listing_unique {T : Type} {regs : List (UInt32 × T)} {name : T → Bytes} {s s' : Bytes} (h : Listing regs name s)
    (h' : Listing regs name s') : s = s' := by
  obtain ⟨ids, h1, h2, h3⟩ := h
  obtain ⟨ids', h1', h2', h3'⟩ := h'
  have nd : ∀ {l : List UInt32}, l.Pairwise (· < ·) → l.Nodup := fun h => h.imp fun hab e => by
    subst e
    exact absurd hab (UInt32.lt_irrefl _)
  have hp : ids.Perm ids' := (List.perm_ext_iff_of_nodup (nd h1) (nd h1')).2 fun a => (h2 a).trans (h2' a).symm
  have e : ids = ids' := List.Perm.eq_of_pairwise (le := (· < ·))
    (fun a b _ _ hab hba => absurd (UInt32.lt_trans hab hba) (UInt32.lt_irrefl _)) h1 h1' hp
  subst e
  clear h1 h2 h1' h2' hp
  induction h3 generalizing s' with
  | nil =>
    cases h3'
    rfl
  | @cons l c ids t ts line rest hc hl _ ih =>
    generalize e : idOf l c :: ids = x at h3'
    cases h3' with
    | nil => cases e
    | @cons l' c' ids' t' ts' line' rest' hc' hl' hr' =>
      simp only [List.cons.injEq] at e
      obtain ⟨rfl, rfl⟩ := idOf_inj e.1
      obtain ⟨_, rfl⟩ := e
      rw [hc] at hc'
      cases hc'
      obtain ⟨x, hx, rfl⟩ := hl
      obtain ⟨x', hx', rfl⟩ := hl'
      rw [idText_unique hx hx', ih hr']

/-- C60. Whatever the order in which the map is iterated and the way equal elements are sorted, the listing of any
sequence of registrations has one line per registered id, in increasing order. -/
theorem C60_listing {T : Type} [DecidableEq T] (calls : List (UInt8 × List (Option UInt16 × T))) (name : T → Bytes) (text : Bytes)
    (h : DumpLingos name (Registry.empty.registerCalls calls) text) : Listing (registrations calls) name text := by
  rw [registerCalls_eq] at h
  obtain ⟨order, cmds, sorted, ho, rfl, hs, hp, rfl⟩ := h
  have hn : ((Registry.empty.storeAll (registrations calls)).idToType.map (·.1)).Nodup := keys_storeAll _ _ List.nodup_nil
  have hk : (sorted.map (·.1)).Perm ((Registry.empty.storeAll (registrations calls)).idToType.map (·.1)) := by
    refine (hs.map _).trans ?_
    rw [List.map_map]
    exact ho.map _
  have hnk := hk.nodup_iff.2 hn
  have hmem : ∀ x ∈ sorted, ∃ t ts, candidates (registrations calls) x.1 = t :: ts ∧ x.2 = name t := by
    intro x hx
    obtain ⟨e, he, rfl⟩ := List.mem_map.1 (hs.mem_iff.1 hx)
    obtain ⟨id, ts⟩ := e
    obtain ⟨h1, h2⟩ := (entries _ _ _).1 (ho.mem_iff.1 he)
    cases ts with
    | nil => exact absurd rfl h2
    | cons t ts => exact ⟨t, ts, h1, rfl⟩
  refine ⟨sorted.map (·.1), ?_, fun id => ?_, ?_⟩
  · rw [List.pairwise_map]
    refine (hp.and (List.pairwise_map.1 hnk)).imp fun {a b} hab => ?_
    rcases UInt32.lt_or_lt_of_ne hab.2 with h | h
    · exact h
    · exact absurd h hab.1
  · rw [hk.mem_iff, ← candidates_ne_nil]
    constructor
    · intro h
      obtain ⟨⟨i, ts⟩, he, rfl⟩ := List.mem_map.1 h
      obtain ⟨h1, h2⟩ := (entries _ _ _).1 he
      rw [h1]
      exact h2
    · intro h
      exact List.mem_map.2 ⟨_, (entries _ _ _).2 ⟨rfl, h⟩, rfl⟩
  · clear hp hs hk hnk
    induction sorted with
    | nil => exact .nil
    | cons x sorted ih =>
      have ih := ih fun y hy => hmem y (List.mem_cons_of_mem _ hy)
      obtain ⟨t, ts, h1, h2⟩ := hmem x List.mem_cons_self
      obtain ⟨id, nm⟩ := x
      simp only at h1 h2
      subst h2
      obtain ⟨t', ht'⟩ := (candidates_ne_nil (registrations calls) id).1 (by rw [h1]; simp)
      obtain ⟨l, c, rfl⟩ := registered_id _ _ _ ht'
      rw [List.map_cons, List.flatMap_cons]
      refine .cons h1 ⟨_, idOf_goString l c, ?_⟩ ih
      have e1 : ascii "\t" = [0x09] := by decide +kernel
      have e2 : ascii "\n" = [0x0A] := by decide +kernel
      rw [e1, e2]

/-- C60. The listing exists and does not depend on the order in which the map is iterated. -/
theorem C60_deterministic {T : Type} [DecidableEq T] (calls : List (UInt8 × List (Option UInt16 × T))) (name : T → Bytes) :
    ∃ text, DumpLingos name (Registry.empty.registerCalls calls) text ∧
      ∀ text', DumpLingos name (Registry.empty.registerCalls calls) text' → text' = text := by
  let order := (Registry.empty.registerCalls calls).idToType
  let cmds := order.map (fun e => (e.1, match e.2 with | t :: _ => name t | [] => []))
  let le : UInt32 × Bytes → UInt32 × Bytes → Bool := fun a b => decide (a.1 ≤ b.1)
  have hd : DumpLingos name (Registry.empty.registerCalls calls)
      ((cmds.mergeSort le).flatMap fun c => c.1.goString ++ ascii "\t" ++ c.2 ++ ascii "\n") := by
    refine ⟨order, cmds, _, .refl _, rfl, List.mergeSort_perm _ _, ?_, rfl⟩
    refine (List.pairwise_mergeSort (le := le) ?_ ?_ cmds).imp fun {a b} h => ?_
    · intro a b c h1 h2
      simp only [le, decide_eq_true_eq] at *
      exact UInt32.le_trans h1 h2
    · intro a b
      simp only [le, Bool.or_eq_true, decide_eq_true_eq]
      exact UInt32.le_total _ _
    · simp only [le, decide_eq_true_eq] at h
      exact UInt32.not_lt.2 h
  exact ⟨_, hd, fun text' h => listing_unique (C60_listing calls name text' h) (C60_listing calls name _ hd)⟩

end Props
