import Verif.Spec.Any
import Verif.Lemmas.RealRegistry
import Verif.Props.Encode
import Verif.Props.Serde

/-! # Payloads and infos of any Go type (C107) -/

namespace Props
open Go Spec Ipod Spec.Any Ipod.Any

theorem heldWrite_iff (old : Bool) (h : Held) (b : Bytes) : h.write old = .ret (.ok b) ↔ InfoBytes h b := by
  cases h with
  | nil => simp only [Held.write, reduceCtorEq, false_iff]; intro h; cases h
  | nilPtr =>
    cases old <;> simp only [Held.write, Bool.false_eq_true, if_false, if_true, Out.ret.injEq, reduceCtorEq, false_iff] <;>
      · intro h; cases h
  | slice c =>
    simp only [Held.write, Out.ret.injEq, Except.ok.injEq]
    exact ⟨fun h => by subst h; exact .slice, fun h => by cases h; rfl⟩
  | struct fs v =>
    simp only [Held.write, Out.ret.injEq]
    rw [binWrite_iff]
    exact ⟨.struct, fun h => by cases h with | struct h => exact h⟩
  | marshaler r fs v =>
    simp only [Held.write, Out.ret.injEq]
    rw [binWrite_iff]
    exact ⟨.marshaler, fun h => by cases h with | marshaler h => exact h⟩

theorem heldWrite_panic (old : Bool) (h : Held) : h.write old = .panic ↔ WriteCrashes old h := by
  cases h <;> cases old <;> simp [Held.write, WriteCrashes]

theorem anyExt_ok (old : Bool) (ty : UInt8) (h : Held) (b : Bytes) :
    Ipod.Any.marshalExtInfo old ty h = .ret (.ok b) ↔ ∃ r, InfoBytes h r ∧ b = ty :: r := by
  rw [Ipod.Any.marshalExtInfo]
  cases hw : h.write old with
  | panic =>
    simp only [Out.bind_panic, reduceCtorEq, false_iff]
    rintro ⟨r, h1, _⟩
    rw [(heldWrite_iff old h r).2 h1] at hw; cases hw
  | ret x =>
    cases x with
    | error e =>
      simp only [Out.bind_ret, Out.ret.injEq, reduceCtorEq, false_iff]
      rintro ⟨r, h1, _⟩
      rw [(heldWrite_iff old h r).2 h1] at hw; cases hw
    | ok r =>
      simp only [Out.bind_ret, Out.ret.injEq, Except.ok.injEq]
      constructor
      · rintro rfl; exact ⟨r, (heldWrite_iff old h r).1 hw, rfl⟩
      · rintro ⟨r', h1, rfl⟩
        rw [(heldWrite_iff old h r').2 h1] at hw; cases hw; rfl

theorem anyExt_panic (old : Bool) (ty : UInt8) (h : Held) :
    Ipod.Any.marshalExtInfo old ty h = .panic ↔ WriteCrashes old h := by
  rw [Ipod.Any.marshalExtInfo, ← heldWrite_panic]
  cases h.write old with
  | panic => simp
  | ret x => cases x <;> simp

theorem anyDisp_ok (old : Bool) (ty : UInt8) (h : Held) (b : Bytes) :
    marshalDispInfo old ty h = .ret (.ok b) ↔
      (∃ r, InfoBytes h r ∧ b = ty :: r) ∨
        (h ≠ .nil ∧ (old = true → h ≠ .nilPtr) ∧ (∀ r, ¬ InfoBytes h r) ∧ b = [ty]) := by
  have hc : ¬ WriteCrashes old h ↔ h ≠ .nil ∧ (old = true → h ≠ .nilPtr) := by simp [WriteCrashes]
  rw [marshalDispInfo, ← and_assoc, ← hc, ← heldWrite_panic]
  simp only [← heldWrite_iff old h]
  cases hw : h.write old with
  | panic => simp
  | ret x => cases x <;> simp [writeIgnoring, eq_comm]

theorem anyDisp_panic (old : Bool) (ty : UInt8) (h : Held) : marshalDispInfo old ty h = .panic ↔ WriteCrashes old h := by
  rw [marshalDispInfo, ← heldWrite_panic]
  cases h.write old <;> simp

/-! ### Tokens and acknowledgements -/

theorem anyPart_ok (old : Bool) (e : Err) (x : TokenID × Held) (b : Bytes) :
    marshalPart old e x.1 x.2 = .ret (.ok b) ↔ PartForm x b := by
  obtain ⟨id, h⟩ := x
  have key : ∀ (body : Out (Except Err Bytes)), (∀ r, body = .ret (.ok r) ↔ PartBytes h r) →
      ((body >>= fun r : Except Err Bytes => match r with
        | .error e => Out.ret (Except.error e)
        | .ok b => .ret (.ok ([id.fidType, id.fidSubtype] ++ b))) = .ret (.ok b) ↔ PartForm (id, h) b) := by
    intro body hb
    simp only [PartForm, ← hb]
    cases body with
    | panic => simp
    | ret y => cases y <;> simp [eq_comm]
  cases h with
  | nil => exact key _ fun r => by cases old <;> simp [Held.size] <;> intro h <;> cases h
  | nilPtr => exact key _ fun r => by cases old <;> simp [Held.size] <;> intro h <;> cases h
  | slice c =>
    refine key _ fun r => ?_
    simp only [Held.size, Held.write, Out.bind_ret, Out.ret.injEq, Except.ok.injEq]
    exact ⟨fun h => by subst h; exact .slice, fun h => by cases h; rfl⟩
  | struct fs v =>
    refine key _ fun r => ?_
    simp only [Held.size, Held.write, Out.bind_ret]
    cases hs : structSize fs with
    | none =>
      simp only [Out.ret.injEq, reduceCtorEq, false_iff]
      intro h
      cases h with
      | struct h => have := (binWrite_iff fs v r).2 h; rw [binWrite, hs] at this; cases this
    | some n =>
      simp only [Out.ret.injEq]
      rw [binWrite_iff]
      exact ⟨.struct, fun h => by cases h with | struct h => exact h⟩
  | marshaler r fs v =>
    refine key _ fun r' => ?_
    simp only [Out.ret.injEq]
    exact ⟨fun h => by subst h; exact .marshaler, fun h => by cases h; rfl⟩

theorem anyPart_panic (old : Bool) (e : Err) (x : TokenID × Held) :
    marshalPart old e x.1 x.2 = .panic ↔ old = true ∧ ¬ Present x.2 := by
  obtain ⟨id, h⟩ := x
  cases h with
  | nil => cases old <;> simp [marshalPart, Held.size, Present]
  | nilPtr => cases old <;> simp [marshalPart, Held.size, Present]
  | slice c => simp [marshalPart, Held.size, Held.write, Present]
  | struct fs v =>
    simp only [marshalPart, Held.size, Held.write, Present, Out.bind_ret, not_true_eq_false, and_false, iff_false]
    cases structSize fs with
    | none => simp
    | some n => cases binWrite fs v <;> simp
  | marshaler r fs v => cases r <;> simp [marshalPart, Present]

theorem anyParts_ok (old : Bool) (e : Err) (l : List (TokenID × Held)) (b : Bytes) :
    marshalParts old e l = .ret (.ok b) ↔ ElementsForm (fun k n => n.toNat = k % 256) PartForm l b := by
  induction l generalizing b with
  | nil =>
    simp only [marshalParts, Out.ret.injEq, Except.ok.injEq]
    exact ⟨fun h => by subst h; exact .nil, fun h => by cases h; rfl⟩
  | cons x l ih =>
    rw [marshalParts]
    constructor
    · intro h
      cases hp : marshalPart old e x.1 x.2 with
      | panic => rw [hp] at h; cases h
      | ret y =>
        rw [hp] at h
        cases y with
        | error e => cases h
        | ok c =>
          simp only [Out.bind_ret] at h
          cases hl : marshalParts old e l with
          | panic => rw [hl] at h; cases h
          | ret z =>
            rw [hl] at h
            cases z with
            | error e => cases h
            | ok rest =>
              cases h
              have := ElementsForm.cons (Len := fun k n => n.toNat = k % 256) ((anyPart_ok old e x c).1 hp)
                ((len_iff c.length _).2 rfl) ((ih _).1 hl)
              simpa using this
    · intro h
      cases h with
      | cons h1 h2 h3 =>
        rw [len_iff] at h2
        rw [(anyPart_ok old e x _).2 h1]
        simp only [Out.bind_ret]
        rw [(ih _).2 h3, h2]
        simp

theorem anyParts_panic (old : Bool) (e : Err) (l : List (TokenID × Held)) :
    marshalParts old e l = .panic ↔ PartCrashes old l := by
  induction l with
  | nil =>
    simp only [marshalParts, reduceCtorEq, false_iff]
    rintro ⟨_, pre, x, post, h, _⟩
    simp at h
  | cons x l ih =>
    rw [marshalParts]
    constructor
    · intro h
      cases hp : marshalPart old e x.1 x.2 with
      | panic =>
        have := (anyPart_panic old e x).1 hp
        exact ⟨this.1, [], x, l, rfl, by simp, this.2⟩
      | ret y =>
        rw [hp] at h
        cases y with
        | error e => cases h
        | ok c =>
          simp only [Out.bind_ret] at h
          have hl : marshalParts old e l = .panic := by
            cases hl : marshalParts old e l with
            | panic => rfl
            | ret z => rw [hl] at h; cases z <;> cases h
          obtain ⟨h1, pre, z, post, h2, h3, h4⟩ := ih.1 hl
          refine ⟨h1, x :: pre, z, post, by rw [h2]; rfl, ?_, h4⟩
          intro y hy
          rcases List.mem_cons.1 hy with rfl | hy
          · exact ⟨c, (anyPart_ok old e _ c).1 hp⟩
          · exact h3 y hy
    · rintro ⟨h1, pre, z, post, h2, h3, h4⟩
      cases pre with
      | nil =>
        cases h2
        rw [(anyPart_panic old e _).2 ⟨h1, h4⟩]; rfl
      | cons y pre =>
        cases h2
        obtain ⟨c, hc⟩ := h3 x List.mem_cons_self
        rw [(anyPart_ok old e x c).2 hc]
        simp only [Out.bind_ret]
        rw [ih.2 ⟨h1, pre, z, post, rfl, fun y hy => h3 y (List.mem_cons_of_mem _ hy), h4⟩]
        rfl

theorem anyCounted_ok (old : Bool) (e : Err) (l : List (TokenID × Held)) (b : Bytes) :
    marshalCounted old e l = .ret (.ok b) ↔ CountedForm (fun k n => n.toNat = k % 256) PartForm l b := by
  rw [marshalCounted, CountedForm]
  constructor
  · intro h
    cases hl : marshalParts old e l with
    | panic => rw [hl] at h; cases h
    | ret z =>
      rw [hl] at h
      cases z with
      | error e => cases h
      | ok r => cases h; exact ⟨_, r, rfl, (len_iff _ _).2 rfl, (anyParts_ok old e l r).1 hl⟩
  · rintro ⟨n, r, rfl, h1, h2⟩
    rw [(anyParts_ok old e l r).2 h2, (len_iff _ _).1 h1]
    rfl

theorem anyCounted_panic (old : Bool) (e : Err) (l : List (TokenID × Held)) :
    marshalCounted old e l = .panic ↔ PartCrashes old l := by
  rw [← anyParts_panic old e, marshalCounted]
  cases marshalParts old e l with
  | panic => simp
  | ret z => cases z <;> simp

/-! ### Messages themselves and nil pointers to them -/

theorem pointerOnly_iff (t : TypeId) : pointerOnly t = true ↔ ByPointer t := by
  cases t with
  | gen g => cases g <;> simp [pointerOnly, ByPointer]
  | ext g => cases g <;> simp [pointerOnly, ByPointer]
  | disp g => cases g <;> simp [pointerOnly, ByPointer]
  | aud g => cases g <;> simp [pointerOnly, ByPointer]
  | sim g => cases g <;> simp [pointerOnly, ByPointer]

theorem pointerOnly_unsized (t : TypeId) (h : pointerOnly t = true) (v : t.Val) : binWrite t.schema v = .error Err.invalidType := by
  cases t with
  | gen g => cases g <;> first | rfl | cases h
  | ext g => cases g <;> first | rfl | cases h
  | disp g => cases g <;> first | rfl | cases h
  | aud g => cases g <;> first | rfl | cases h
  | sim g => cases g <;> first | rfl | cases h

theorem hasMarshal_iff (t : TypeId) (v : t.Val) : hasMarshal t = true ↔ t.marshalBinary v ≠ none := by
  cases t with
  | gen g => cases g <;> simp [hasMarshal, pointerOnly, TypeId.marshalBinary]
  | ext g => cases g <;> simp [hasMarshal, pointerOnly, TypeId.marshalBinary]
  | disp g => cases g <;> simp [hasMarshal, pointerOnly, TypeId.marshalBinary]
  | aud g => cases g <;> simp [hasMarshal, pointerOnly, TypeId.marshalBinary]
  | sim g => cases g <;> simp [hasMarshal, pointerOnly, TypeId.marshalBinary]

theorem encodeAny_ok (old : Bool) (p : Any.Payload) (b : Bytes) :
    Ipod.Any.encodePayload old p = .ret (.ok b) ↔ Sends p b ∨ SendsBare old p b := by
  cases p with
  | of p =>
    simp only [Ipod.Any.encodePayload, Out.ret.injEq]
    cases p with
    | nil => exact ⟨fun h => (by cases h), fun h => (by rcases h with h | h <;> cases h)⟩
    | unknown c => exact ⟨fun h => by cases h; exact .inl .raw, fun h => by rcases h with h | h <;> cases h; rfl⟩
    | ptr t v =>
      rw [C90_sent]
      exact ⟨fun h => .inl (.ptr h), fun h => by rcases h with h | h <;> cases h; assumption⟩
  | value t v =>
    simp only [Ipod.Any.encodePayload]
    by_cases hp : pointerOnly t = true
    · rw [if_pos hp, pointerOnly_unsized t hp v]
      refine ⟨fun h => (by cases h), fun h => ?_⟩
      rcases h with h | h <;> cases h
      rename_i h1 h2
      exact absurd ((pointerOnly_iff t).1 hp) h1
    · rw [if_neg hp, Out.ret.injEq, C90_sent]
      exact ⟨fun h => .inl (.value (fun h' => hp ((pointerOnly_iff t).2 h')) h), fun h => by
        rcases h with h | h <;> cases h; assumption⟩
  | nilPtr t =>
    refine ⟨fun h => ?_, fun h => by rcases h with h | h <;> cases h⟩
    simp only [Ipod.Any.encodePayload] at h
    split at h
    · cases h
    · have := (heldWrite_iff old _ b).1 h; cases this
  | extInfo ty h =>
    rw [Ipod.Any.encodePayload, anyExt_ok]
    constructor
    · rintro ⟨r, h1, rfl⟩; exact .inl (.extInfo h1)
    · intro h; rcases h with h | h <;> cases h
      rename_i h1
      exact ⟨_, h1, rfl⟩
  | dispState ty h =>
    rw [Ipod.Any.encodePayload, anyDisp_ok]
    constructor
    · rintro (⟨r, h1, rfl⟩ | ⟨h1, h2, h3, rfl⟩)
      · exact .inl (.dispState h1)
      · exact .inr (.dispState h1 h2 h3)
    · rintro (h | h)
      · cases h with | dispState h1 => exact .inl ⟨_, h1, rfl⟩
      · cases h with | dispState h1 h2 h3 => exact .inr ⟨h1, h2, h3, rfl⟩
  | dispTrack ty h =>
    rw [Ipod.Any.encodePayload, anyDisp_ok]
    constructor
    · rintro (⟨r, h1, rfl⟩ | ⟨h1, h2, h3, rfl⟩)
      · exact .inl (.dispTrack h1)
      · exact .inr (.dispTrack h1 h2 h3)
    · rintro (h | h)
      · cases h with | dispTrack h1 => exact .inl ⟨_, h1, rfl⟩
      · cases h with | dispTrack h1 h2 h3 => exact .inr ⟨h1, h2, h3, rfl⟩
  | tokens l =>
    rw [Ipod.Any.encodePayload, anyCounted_ok]
    exact ⟨fun h => .inl (.tokens h), fun h => by rcases h with h | h <;> cases h; assumption⟩
  | acks l =>
    rw [Ipod.Any.encodePayload, anyCounted_ok]
    exact ⟨fun h => .inl (.acks h), fun h => by rcases h with h | h <;> cases h; assumption⟩
  | other ptr own fs v =>
    cases own with
    | some r =>
      simp only [Ipod.Any.encodePayload, Out.ret.injEq]
      exact ⟨fun h => by subst h; exact .inl .own, fun h => by rcases h with h | h <;> cases h; rfl⟩
    | none =>
      simp only [Ipod.Any.encodePayload, Out.ret.injEq]
      rw [binWrite_iff]
      exact ⟨fun h => .inl (.struct h), fun h => by rcases h with h | h <;> cases h; assumption⟩

/-- A value of each message type. -/
theorem val_exists : ∀ fs : List FTy, Nonempty (SVal fs) := by
  intro fs
  induction fs with
  | nil => exact ⟨()⟩
  | cons f fs ih =>
    obtain ⟨vs⟩ := ih
    have : Nonempty f.denote := by
      cases f with
      | arr n => exact ⟨⟨List.replicate n 0, by simp⟩⟩
      | extInfo => exact ⟨.emptyVal⟩
      | dispState => exact ⟨.playStatus 0⟩
      | dispTrack => exact ⟨.artworkCount 0⟩
      | bool => exact ⟨false⟩
      | blank => exact ⟨()⟩
      | bytes => exact ⟨([] : Bytes)⟩
      | u32s => exact ⟨([] : List UInt32)⟩
      | artworks => exact ⟨([] : List ArtworkFormat)⟩
      | fidTokens => exact ⟨([] : List FIDTokenValue)⟩
      | fidAcks => exact ⟨([] : List FIDTokenValueACK)⟩
      | u8 => exact ⟨(0 : UInt8)⟩
      | u16 => exact ⟨(0 : UInt16)⟩
      | u32 => exact ⟨(0 : UInt32)⟩
      | u64 => exact ⟨(0 : UInt64)⟩
      | i16 => exact ⟨(0 : Int16)⟩
      | i32 => exact ⟨(0 : Int32)⟩
    obtain ⟨v⟩ := this
    exact ⟨(v, vs)⟩

theorem ownCodec_iff (t : TypeId) : hasMarshal t = true ↔ OwnCodec t := by
  constructor
  · intro h v; exact (hasMarshal_iff t v).1 h
  · intro h
    obtain ⟨v⟩ := val_exists t.schema
    exact (hasMarshal_iff t v).2 (h v)

theorem encodeAny_panic (old : Bool) (p : Any.Payload) : Ipod.Any.encodePayload old p = .panic ↔ Crashes old p := by
  cases p with
  | of p => exact ⟨fun h => (by cases h), fun h => (by cases h)⟩
  | value t v =>
    refine ⟨fun h => ?_, fun h => by cases h⟩
    simp only [Ipod.Any.encodePayload] at h
    split at h <;> cases h
  | nilPtr t =>
    simp only [Ipod.Any.encodePayload]
    constructor
    · intro h
      split at h
      · rename_i hm; exact .own ((ownCodec_iff t).1 hm)
      · have := (heldWrite_panic old _).1 h
        rcases this with h1 | ⟨h1, _⟩
        · cases h1
        · exact .nilPtr h1
    · intro h
      split
      · rfl
      · rename_i hm
        cases h with
        | own h => exact absurd ((ownCodec_iff t).2 h) hm
        | nilPtr h => exact (heldWrite_panic old _).2 (.inr ⟨h, rfl⟩)
  | extInfo ty h =>
    rw [Ipod.Any.encodePayload, anyExt_panic]
    exact ⟨.extInfo, fun h => by cases h; assumption⟩
  | dispState ty h =>
    rw [Ipod.Any.encodePayload, anyDisp_panic]
    exact ⟨.dispState, fun h => by cases h; assumption⟩
  | dispTrack ty h =>
    rw [Ipod.Any.encodePayload, anyDisp_panic]
    exact ⟨.dispTrack, fun h => by cases h; assumption⟩
  | tokens l =>
    rw [Ipod.Any.encodePayload, anyCounted_panic]
    exact ⟨.tokens, fun h => by cases h; assumption⟩
  | acks l =>
    rw [Ipod.Any.encodePayload, anyCounted_panic]
    exact ⟨.acks, fun h => by cases h; assumption⟩
  | other ptr own fs v => cases own <;> exact ⟨fun h => (by cases h), fun h => (by cases h)⟩

theorem marshalAny_eq (old m : Bool) (id : LingoCmdID) (trx : Option UInt16) (p : Any.Payload) :
    Ipod.Any.marshalCmd old m id trx p =
      match Ipod.Any.encodePayload old p with
      | .panic => .panic
      | .ret (.ok b) => .ret (Ipod.marshalCmd m ⟨id, trx, .unknown b⟩)
      | .ret (.error e) => .ret (handleCmdID m id, .error e) := by
  rw [Ipod.Any.marshalCmd.eq_def]
  cases Ipod.Any.encodePayload old p with
  | panic => rfl
  | ret x => cases x <;> rfl

theorem marshalPart_token (old : Bool) (v : FIDTokenValue) (h : old = true → v.token ≠ .nil) :
    marshalPart old Err.unknownToken v.id (goToken v.token) = .ret (marshalTokenValue v) := by
  obtain ⟨id, t⟩ := v
  cases t with
  | nil => cases old with
    | false => rfl
    | true => exact absurd rfl (h rfl)
  | _ => rfl

theorem marshalPart_ack (old : Bool) (v : FIDTokenValueACK) (h : old = true → v.ack ≠ none) :
    marshalPart old Err.unknownAck v.id (goAck v.ack) = .ret (marshalAck v) := by
  obtain ⟨id, t⟩ := v
  cases t with
  | none => cases old with
    | false => rfl
    | true => exact absurd rfl (h rfl)
  | some b => rfl

theorem marshalParts_list {α : Type} (old : Bool) (e : Err) (f : α → TokenID × Held) (enc : α → Except Err Bytes) (l : List α)
    (h : ∀ v ∈ l, marshalPart old e (f v).1 (f v).2 = .ret (enc v)) :
    marshalParts old e (l.map f) = .ret (marshalList enc l) := by
  induction l with
  | nil => rfl
  | cons v l ih =>
    rw [List.map_cons, marshalParts, h v List.mem_cons_self, Out.bind_ret, marshalList]
    cases enc v with
    | error e => rfl
    | ok b =>
      simp only
      rw [ih fun w hw => h w (List.mem_cons_of_mem _ hw), Out.bind_ret]
      cases marshalList enc l <;> rfl

theorem encodeAny_same (old : Bool) (p : Ipod.Payload) (h : old = true → Complete (asGo p)) :
    Ipod.Any.encodePayload old (asGo p) = .ret (Ipod.encodePayload p) := by
  cases p with
  | nil => rfl
  | unknown b => rfl
  | ptr t v =>
    cases t with
    | gen g =>
      cases g
      case SetFIDTokenValues =>
        refine (?_ : marshalCounted old Err.unknownToken (v.1.map fun x => (x.id, goToken x.token)) = .ret (marshalTokens v.1))
        rw [marshalCounted, marshalParts_list old _ _ marshalTokenValue, Out.bind_ret, marshalTokens, List.length_map]
        · cases marshalList marshalTokenValue v.1 <;> rfl
        · intro w hw
          refine marshalPart_token old w fun ho hn => ?_
          have := h ho (w.id, goToken w.token) (List.mem_map.2 ⟨w, hw, rfl⟩)
          rw [hn] at this
          exact this
      case RetFIDTokenValueACKs =>
        refine (?_ : marshalCounted old Err.unknownAck (v.1.map fun x => (x.id, goAck x.ack)) = .ret (marshalAcks v.1))
        rw [marshalCounted, marshalParts_list old _ _ marshalAck, Out.bind_ret, marshalAcks, List.length_map]
        · cases marshalList marshalAck v.1 <;> rfl
        · intro w hw
          refine marshalPart_ack old w fun ho hn => ?_
          have := h ho (w.id, goAck w.ack) (List.mem_map.2 ⟨w, hw, rfl⟩)
          rw [hn] at this
          exact this
      all_goals rfl
    | ext g =>
      cases g
      case ReturnIndexedPlayingTrackInfo =>
        obtain ⟨ty, i, u⟩ := v
        cases i <;> rfl
      all_goals rfl
    | disp g =>
      cases g
      case RetiPodStateInfo =>
        obtain ⟨ty, i, u⟩ := v
        cases i <;> rfl
      case RetIndexedPlayingTrackInfo =>
        obtain ⟨ty, i, u⟩ := v
        cases i <;> rfl
      all_goals rfl
    | aud g => cases g <;> rfl
    | sim g => cases g <;> rfl

/-! ## C107 -/

/-- C107. Exactly the packets: id, transaction if the mode after the command asks for it, and the bytes of the payload. -/
theorem C107_packet (old m : Bool) (l : UInt8) (c : UInt16) (trx : Option UInt16) (p : Any.Payload) (m' : Bool) (pkt : Bytes) :
    Ipod.Any.marshalCmd old m (idOf l c) trx p = .ret (m', .ok pkt) ↔
      m' = (switchOfId (idOf l c)).getD m ∧
      ∃ b, (Sends p b ∨ SendsBare old p b) ∧ pkt = idBytes l c ++ (if m' then transactionBytes trx else []) ++ b := by
  simp only [← encodeAny_ok, marshalAny_eq]
  cases he : Ipod.Any.encodePayload old p with
  | panic => simp
  | ret x =>
    cases x with
    | error e => simp
    | ok b =>
      have hm : (Ipod.marshalCmd m ⟨idOf l c, trx, .unknown b⟩) =
          ((switchOfId (idOf l c)).getD m, .ok (idBytes l c ++ (if (switchOfId (idOf l c)).getD m then transactionBytes trx else []) ++ b)) := by
        have h2 := (C17_packet_layout m ⟨idOf l c, trx, .unknown b⟩ ⟨l, c, rfl⟩ _).2 ⟨l, c, b, rfl, .raw b, rfl⟩
        have h1 : (Ipod.marshalCmd m ⟨idOf l c, trx, .unknown b⟩).1 = (switchOfId (idOf l c)).getD m := by
          rw [← switch_eq]; rfl
        exact Prod.ext h1 h2
      simp only [Out.ret.injEq]
      rw [hm, Prod.mk.injEq, Except.ok.injEq]
      constructor
      · rintro ⟨rfl, rfl⟩; exact ⟨rfl, b, rfl, rfl⟩
      · rintro ⟨rfl, b', h, rfl⟩; cases h; exact ⟨rfl, rfl⟩

/-- C107. Exactly what crashes the program. -/
theorem C107_crashes_iff (old m : Bool) (id : LingoCmdID) (trx : Option UInt16) (p : Any.Payload) :
    Ipod.Any.marshalCmd old m id trx p = .panic ↔ Crashes old p := by
  rw [← encodeAny_panic, marshalAny_eq]
  cases Ipod.Any.encodePayload old p with
  | panic => simp
  | ret x => cases x <;> simp

/-- C107. All else is refused. -/
theorem C107_refused_iff (old m : Bool) (id : LingoCmdID) (trx : Option UInt16) (p : Any.Payload) :
    (∃ m' e, Ipod.Any.marshalCmd old m id trx p = .ret (m', .error e)) ↔
      ¬ Crashes old p ∧ ∀ b, ¬ Sends p b ∧ ¬ SendsBare old p b := by
  simp only [← encodeAny_panic, ← not_or, ← encodeAny_ok, marshalAny_eq]
  cases Ipod.Any.encodePayload old p with
  | panic => simp
  | ret x =>
    cases x with
    | error e => simp
    | ok b =>
      simp only [Out.ret.injEq, reduceCtorEq, not_false_eq_true, true_and, Except.ok.injEq]
      constructor
      · rintro ⟨m', e, h⟩; rw [Prod.ext_iff] at h; cases h.2
      · intro h; exact absurd rfl (h b)

theorem complete_safe (old : Bool) (p : Any.Payload) (h : Complete p) : ¬ Crashes old p := by
  intro hc
  cases hc with
  | own => exact h
  | nilPtr => exact h
  | extInfo hw => rcases hw with rfl | ⟨_, rfl⟩ <;> exact h
  | dispState hw => rcases hw with rfl | ⟨_, rfl⟩ <;> exact h
  | dispTrack hw => rcases hw with rfl | ⟨_, rfl⟩ <;> exact h
  | tokens hw => obtain ⟨_, pre, x, post, rfl, _, hx⟩ := hw; exact hx (h x (by simp))
  | acks hw => obtain ⟨_, pre, x, post, rfl, _, hx⟩ := hw; exact hx (h x (by simp))

/-- C107, part: a payload in which nothing is missing is encoded or refused. Missing: nil infos and nil pointers, which crash
(`C107_crashes_iff`, `C107_fails`). -/
theorem C107_returns_partial (old m : Bool) (id : LingoCmdID) (trx : Option UInt16) (p : Any.Payload) (h : Complete p) :
    ∃ r, Ipod.Any.marshalCmd old m id trx p = .ret r := by
  cases hr : Ipod.Any.marshalCmd old m id trx p with
  | ret r => exact ⟨r, rfl⟩
  | panic => exact absurd ((C107_crashes_iff old m id trx p).1 hr) (complete_safe old p h)

/-- C107, part: the display-remote infos apart, what is sent contains the whole payload. Missing: display-remote infos without
fixed size, see `C107_packet` and `C107_fails`. -/
theorem C107_whole_partial (old m : Bool) (l : UInt8) (c : UInt16) (trx : Option UInt16) (p : Any.Payload) (m' : Bool) (pkt : Bytes)
    (hd : ∀ ty h, p ≠ .dispState ty h ∧ p ≠ .dispTrack ty h)
    (h : Ipod.Any.marshalCmd old m (idOf l c) trx p = .ret (m', .ok pkt)) :
    ∃ b, Sends p b ∧ pkt = idBytes l c ++ (if m' then transactionBytes trx else []) ++ b := by
  obtain ⟨_, b, hb | hb, h2⟩ := (C107_packet old m l c trx p m' pkt).1 h
  · exact ⟨b, hb, h2⟩
  · cases hb with
    | dispState => exact absurd rfl (hd _ _).1
    | dispTrack => exact absurd rfl (hd _ _).2

/-- C107 is false of the code: a missing info crashes the program in every release; the display remote sends an info it cannot
encode as if it were empty; and a message that can be sent by pointer is refused by value. -/
theorem C107_fails (old m : Bool) (trx : Option UInt16) :
    (∀ ty, Ipod.Any.marshalCmd old m (idOf 0x04 0x0D) trx (.extInfo ty .nil) = .panic) ∧
    (∀ ty s, Ipod.Any.marshalCmd old false (idOf 0x03 0x0D) none (.dispState ty (.struct [.bytes] (s, ()))) = .ret (false, .ok [0x03, 0x0D, ty])) ∧
    (∀ l e, Ipod.Any.marshalCmd old m (idOf 0x02 0x00) trx (.value (.sim .ContextButtonStatus) (l, e)) =
      .ret (m, .error Err.invalidType)) := by
  refine ⟨fun ty => (C107_crashes_iff _ _ _ _ _).2 (.extInfo (.inl rfl)), fun ty s => ?_, fun l e => rfl⟩
  rfl

/-- C107. For the payloads that decoders and handlers make, this is the encoder of all other properties; in the older releases as
long as no token or acknowledgement is missing. -/
theorem C107_same (old m : Bool) (id : LingoCmdID) (trx : Option UInt16) (p : Ipod.Payload) (h : old = true → Complete (asGo p)) :
    Ipod.Any.marshalCmd old m id trx (asGo p) = .ret (Ipod.marshalCmd m ⟨id, trx, p⟩) := by
  rw [marshalAny_eq, encodeAny_same old p h]
  cases he : Ipod.encodePayload p with
  | ok b => simp only [Ipod.marshalCmd, he]; rfl
  | error e => simp only [Ipod.marshalCmd, he]

example (m : Bool) (id : LingoCmdID) (trx : Option UInt16) (p : Ipod.Payload) :
    Ipod.Any.marshalCmd false m id trx (asGo p) = .ret (Ipod.marshalCmd m ⟨id, trx, p⟩) :=
  C107_same _ _ _ _ _ nofun

/-- C107. Answering: a payload that is no pointer crashes, one of another type than the registered messages is dropped, all others
are handed on with the id of their type and the transaction of the request. -/
theorem C107_respond (reqTrx : Option UInt16) (out : List Any.Command) (p : Any.Payload) :
    (respond reqTrx out p = .panic ↔ ¬ IsPointer p) ∧
    (IsPointer p → messageType p = none → respond reqTrx out p = .ret out) ∧
    (∀ t, IsPointer p → messageType p = some t → respond reqTrx out p = .ret (out ++ [⟨t.id, reqTrx, p⟩])) := by
  cases p with
  | of p => cases p <;> simp [Ipod.Any.respond, Ipod.Any.lookupID, IsPointer, messageType, lookupID_eq]
  | other ptr own fs v => cases ptr <;> simp [Ipod.Any.respond, Ipod.Any.lookupID, IsPointer, messageType]
  | _ => simp [Ipod.Any.respond, Ipod.Any.lookupID, IsPointer, messageType, lookupID_eq]

/-- Infos of other types than the ones the library has: a struct of two numbers, bytes, and one that would encode itself. -/
example : Sends (.extInfo 0x05 (.struct [.u16, .u8] (0x0102, 0x03, ()))) [0x05, 0x01, 0x02, 0x03] :=
  .extInfo (.struct ((binWrite_iff [.u16, .u8] (0x0102, 0x03, ()) _).1 rfl))
example : Sends (.dispState 0x05 (.slice [0x07, 0x08])) [0x05, 0x07, 0x08] := .dispState .slice
example : Sends (.dispState 0x05 (.marshaler (.ok [0xFF]) [.u8] (0x09, ()))) [0x05, 0x09] :=
  .dispState (.marshaler ((binWrite_iff [.u8] (0x09, ()) _).1 rfl))
/-- As a token it is asked to. -/
example : Sends (.tokens [(⟨0x00, 0x02⟩, .marshaler (.ok [0xFF]) [.u8] (0x09, ()))]) [0x01, 0x03, 0x00, 0x02, 0xFF] :=
  .tokens ⟨0x01, _, rfl, rfl, .cons (n := 0x03) (b := [0x00, 0x02, 0xFF]) (rest := []) ⟨[0xFF], .marshaler, rfl⟩ rfl .nil⟩
/-- A token list crashes older releases only. -/
example : Crashes true (.tokens [(⟨0x00, 0x08⟩, .slice [0x01, 0x02]), (⟨0x00, 0x06⟩, .nil)]) :=
  .tokens ⟨rfl, [(⟨0x00, 0x08⟩, .slice [0x01, 0x02])], _, [], rfl, fun y hy => by
    rw [List.mem_singleton] at hy; subst hy; exact ⟨_, _, .slice, rfl⟩, fun h => h⟩
example : ∃ m' e, Ipod.Any.marshalCmd false true (idOf 0x00 0x39) none
    (.tokens [(⟨0x00, 0x08⟩, .slice [0x01, 0x02]), (⟨0x00, 0x06⟩, .nil)]) = .ret (m', .error e) := ⟨_, _, rfl⟩
example : ∀ ty h, (Payload.extInfo 0x05 (.slice [0x01])) ≠ .dispState ty h ∧ (Payload.extInfo 0x05 (.slice [0x01])) ≠ .dispTrack ty h :=
  fun _ _ => ⟨nofun, nofun⟩
example : Complete (asGo (.ptr (.gen .SetFIDTokenValues) ([⟨⟨0x00, 0x08⟩, .eaMetadata 1 2⟩], ()))) := by
  intro x hx
  cases List.mem_singleton.1 hx
  trivial
example : ¬ ByPointer (.gen .ReturniPodName) ∧ SentForm (.gen .ReturniPodName) ([0x41], ()) [0x41] :=
  ⟨by simp [ByPointer], rfl⟩

end Props
