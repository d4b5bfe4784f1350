import Verif.Props.Unambiguous

/-! # Properties C14 and C15, exactly: which messages come back -/

namespace Props
open Go Spec Ipod

/-! ## C14 -/

/-- C14, every exception: an `ACKDataDropped` sent without transaction, whatever it says, is received in any mode, without an error, as the
`ACKPending` it looks like. -/
theorem C14_dropped_ack_always (v : TypeId.Val (.gen .ACKDataDropped)) (trx : Option UInt16) (m m' : Bool)
    (hs : (if (switchOfId ((registry.lookupID (.gen .ACKDataDropped)).getD 0)).getD m then trx else none) = none) :
    ∃ cmd pkt m3 hi lo n r, buildCommand (.ptr (.gen .ACKDataDropped) v) = .ret (.ok cmd) ∧
      (marshalCmd m { cmd with trx := trx }).2 = .ok pkt ∧
      unmarshalCmd m' pkt = .ret (m3, ⟨cmd.id, some r, .ptr (.gen .ACKPending) (hi, lo, n, ())⟩, none) ∧
      LooksLike ⟨.gen .ACKDataDropped, v, none⟩ ⟨.gen .ACKPending, (hi, lo, n, ()), some r⟩ := by
  obtain ⟨status, cmd, session, k, ⟨⟩⟩ := v
  obtain ⟨y, hy⟩ := dropped_split status cmd session k
  have hsz : FixedSize (TypeId.schema (.gen .ACKDataDropped)) 8 := (structSize_iff _ _).1 rfl
  have hen : ∃ pkt, (marshalCmd m ⟨TypeId.id (.gen .ACKDataDropped), trx, .ptr (.gen .ACKDataDropped) (status, cmd, session, k, ())⟩).2
      = .ok pkt := by
    rw [marshalCmd_eq]
    simp only [encodePayload_fixed (t := .gen .ACKDataDropped) (n := 8) rfl]
    exact ⟨_, rfl⟩
  obtain ⟨pkt, hp⟩ := hen
  have hsend : Sends m (.gen .ACKDataDropped) (status, cmd, session, k, ()) trx pkt
      ⟨.gen .ACKDataDropped, (status, cmd, session, k, ()), none⟩ :=
    ⟨⟨_, buildCommand_ptr _ _, hp⟩, by rw [hs]⟩
  obtain ⟨-, f2⟩ := sends_form hsend hsz
  have hb := looksLike_bytes hy
  generalize hq : (⟨.gen .ACKDataDropped, (status, cmd, session, k, ()), none⟩ : Msg) = q at hy hb
  have hy' := hy
  cases hy with
  | dropped status cmd hi lo k session r h1 h2 =>
    simp only [Msg.mk.injEq, heq_eq_eq, true_and, and_true, Prod.mk.injEq] at hq
    obtain ⟨rfl, rfl, rfl, rfl⟩ := hq
    have hs2 : FixedSize (TypeId.schema (.gen .ACKPending)) 6 := (structSize_iff _ _).1 rfl
    have hsend2 : Sends true (.gen .ACKPending) (hi, lo, k, ()) (some r) pkt ⟨.gen .ACKPending, (hi, lo, k, ()), some r⟩ := by
      refine ⟨⟨_, buildCommand_ptr _ _, ?_⟩, ?_⟩
      · rw [marshalCmd_eq]
        simp only [encodePayload_fixed (t := .gen .ACKPending) (n := 6) rfl, lingoID_id, cmdID_id, f2, Except.ok.injEq]
        have hid : handleCmdID true (TypeId.id (.gen .ACKPending)) = true := by decide +kernel
        rw [hid, List.append_assoc, List.append_assoc]
        exact congrArg _ hb.symm
      · have : (switchOfId ((registry.lookupID (.gen .ACKPending)).getD 0)).getD true = true := by
          rw [lookupID_eq]; decide +kernel
        rw [if_pos this]
    obtain ⟨m3, r1⟩ := sends_read hsend2 hs2 (by simp) m'
    exact ⟨_, pkt, m3, hi, lo, k, r, buildCommand_ptr _ _, hp, r1, hy'⟩

/-- C14, exactly: a fixed-size message, sent with any transaction in any mode and received in any mode, comes back just if it is not an
`ACKDataDropped` sent without transaction. -/
theorem C14_fixed_roundtrip_iff (t : TypeId) (n : Nat) (h : FixedSize t.schema n) (v : t.Val)
    (trx : Option UInt16) (m m' : Bool) (sent : Option UInt16)
    (hs : sent = if (switchOfId ((registry.lookupID t).getD 0)).getD m then trx else none) :
    (∃ cmd pkt m2 m3, buildCommand (.ptr t v) = .ret (.ok cmd) ∧
      marshalCmd m { cmd with trx := trx } = (m2, .ok pkt) ∧
      unmarshalCmd m' pkt = .ret (m3, { cmd with trx := sent }, none) ∧ cmd.payload = .ptr t v) ↔
    ¬ (t = .gen .ACKDataDropped ∧ sent = none) := by
  constructor
  · rintro ⟨cmd, pkt, m2, m3, h1, h2, h3, h4⟩ ⟨rfl, rfl⟩
    obtain ⟨cmd', pkt', m4, hi, lo, k, r, g1, g2, g3, -⟩ := C14_dropped_ack_always v trx m m' hs.symm
    rw [h1] at g1
    cases g1
    rw [h2] at g2
    cases g2
    rw [h3] at g3
    simp only [Out.ret.injEq, Prod.mk.injEq, and_true] at g3
    have := congrArg Command.trx g3.2
    cases this
  · intro hx
    obtain ⟨cmd, pkt, m2, m3, h1, h2, h3, h4, -⟩ := C14_fixed_roundtrip_partial t n h v trx m m' sent hs hx
    exact ⟨cmd, pkt, m2, m3, h1, h2, h3, h4⟩

example : ¬ ∃ cmd pkt m2 m3, buildCommand (.ptr (.gen .ACKDataDropped) (0x01, 0x02, 0x0304, 0x05060708, ())) = .ret (.ok cmd) ∧
    marshalCmd false { cmd with trx := none } = (m2, .ok pkt) ∧
    unmarshalCmd true pkt = .ret (m3, { cmd with trx := none }, none) ∧
    cmd.payload = .ptr (.gen .ACKDataDropped) (0x01, 0x02, 0x0304, 0x05060708, ()) := fun h =>
  (C14_fixed_roundtrip_iff (.gen .ACKDataDropped) 8 ((structSize_iff _ _).1 rfl) (0x01, 0x02, 0x0304, 0x05060708, ()) none false true none
    (by simp)).1 h ⟨rfl, rfl⟩

/-- Both sides of the line. -/
example : ∃ cmd pkt m3 hi lo n r, buildCommand (.ptr (.gen .ACKDataDropped) (0x01, 0x02, 0x0304, 0x05060708, ())) = .ret (.ok cmd) ∧
      (marshalCmd false { cmd with trx := some 7 }).2 = .ok pkt ∧
      unmarshalCmd true pkt = .ret (m3, ⟨cmd.id, some r, .ptr (.gen .ACKPending) (hi, lo, n, ())⟩, none) ∧
      LooksLike ⟨.gen .ACKDataDropped, (0x01, 0x02, 0x0304, 0x05060708, ()), none⟩ ⟨.gen .ACKPending, (hi, lo, n, ()), some r⟩ :=
  C14_dropped_ack_always _ _ _ _ (by decide +kernel)
example : FixedSize (TypeId.schema (.gen .ACKDataDropped)) 8 := (structSize_iff _ _).1 rfl

/-! ## C15 -/

/-- C15, exactly: a message with its own codec whose parts agree comes back just if it is not a track text of the display remote. -/
theorem C15_var_roundtrip_iff (t : TypeId) (v : t.Val) (h : VarOK t v) (trx : Option UInt16) (m : Bool) (hm : trx.isSome = m) :
    (∃ cmd pkt, buildCommand (.ptr t v) = .ret (.ok cmd) ∧
      marshalCmd m { cmd with trx := trx } = (m, .ok pkt) ∧
      unmarshalCmd m pkt = .ret (m, { cmd with trx := trx }, none) ∧ cmd.payload = .ptr t v) ↔ ¬ IsTrackText t v := by
  constructor
  · rintro ⟨cmd, pkt, h1, h2, h3, h4⟩ hx
    cases h with
    | dispTrack ty i hi =>
      obtain ⟨pkt', id, g1, g2, g3⟩ := C15_track_text_not_roundtrip m ty i hi hx trx hm
      rw [buildCommand_ptr] at h1
      rw [lookupID_eq, Option.some.injEq] at g2
      simp only [Out.ret.injEq, Except.ok.injEq] at h1
      subst h1
      subst g2
      simp only [g1, Prod.mk.injEq, Except.ok.injEq, true_and] at h2
      subst h2
      rw [g3] at h3
      simp only [Out.ret.injEq, Prod.mk.injEq, reduceCtorEq, and_false] at h3
    | _ => exact hx
  · intro hx
    obtain ⟨cmd, pkt, h1, h2, h3, h4, -⟩ := C15_var_roundtrip_partial t v h hx trx m hm
    exact ⟨cmd, pkt, h1, h2, h3, h4⟩

example (m : Bool) (trx : Option UInt16) (hm : trx.isSome = m) :
    ¬ ∃ cmd pkt, buildCommand (.ptr (.disp .RetIndexedPlayingTrackInfo) (0x05, .track [0x41, 0x00], ())) = .ret (.ok cmd) ∧
      marshalCmd m { cmd with trx := trx } = (m, .ok pkt) ∧ unmarshalCmd m pkt = .ret (m, { cmd with trx := trx }, none) ∧
      cmd.payload = .ptr (.disp .RetIndexedPlayingTrackInfo) (0x05, .track [0x41, 0x00], ()) := fun h =>
  (C15_var_roundtrip_iff (.disp .RetIndexedPlayingTrackInfo) (0x05, .track [0x41, 0x00], ()) (.dispTrack _ _ rfl) trx m hm).1 h (fun h => h)

example : VarOK (.disp .RetIndexedPlayingTrackInfo) (0x05, .track [0x41, 0x00], ()) ∧
    IsTrackText (.disp .RetIndexedPlayingTrackInfo) (0x05, .track [0x41, 0x00], ()) := ⟨.dispTrack _ _ rfl, fun h => h⟩

end Props
