import Verif.Spec.Unambiguous
import Verif.Props.Serde

/-! # Property C102: different messages have different bytes -/

namespace Props
open Go Spec Ipod

/-! ## C102 -/

/-- A fixed-size message that is not the exception is read back. -/
theorem sends_read {m : Bool} {t : TypeId} {v : t.Val} {trx : Option UInt16} {p : Bytes} {x : Msg} (h : Sends m t v trx p x)
    {n : Nat} (hs : FixedSize t.schema n) (hx : ¬ (t = .gen .ACKDataDropped ∧ x.trx = none)) (m' : Bool) :
    ∃ m3, unmarshalCmd m' p = .ret (m3, ⟨t.id, x.trx, .ptr x.type x.value⟩, none) := by
  obtain ⟨⟨cmd, h1, h2⟩, rfl⟩ := h
  obtain ⟨cmd', pkt, m2, m3, e1, e2, e3, e4, e5⟩ := C14_fixed_roundtrip_partial t n hs v trx m m' _ rfl hx
  rw [h1] at e1
  cases e1
  rw [e2] at h2
  cases h2
  refine ⟨m3, e3.trans ?_⟩
  rw [buildCommand_ptr] at h1
  cases h1
  rfl

theorem sends_form {m : Bool} {t : TypeId} {v : t.Val} {trx : Option UInt16} {p : Bytes} {x : Msg} (h : Sends m t v trx p x)
    {n : Nat} (hs : FixedSize t.schema n) :
    x.type = t ∧ p = idBytes t.lingo t.cmd ++ trxBytes x.trx ++ encStruct x.type.schema x.value := by
  obtain ⟨⟨cmd, h1, h2⟩, rfl⟩ := h
  refine ⟨rfl, ?_⟩
  rw [buildCommand_ptr] at h1
  cases h1
  rw [marshalCmd_eq] at h2
  simp only [encodePayload_fixed ((structSize_iff _ _).2 hs), lingoID_id, cmdID_id, Except.ok.injEq] at h2
  rw [← h2]
  simp only [lookupID_eq, Option.getD_some, ← switch_eq, sentTrx]

/-- The bytes of the exception. -/
theorem looksLike_bytes {x y : Msg} (h : LooksLike x y) :
    trxBytes x.trx ++ encStruct x.type.schema x.value = trxBytes y.trx ++ encStruct y.type.schema y.value := by
  cases h with
  | dropped status cmd hi lo n session trx h1 h2 =>
    have e1 : FTy.enc .u16 session = [hi, lo] := by
      have a := hi.toNat_lt; have b := lo.toNat_lt
      simp only [FTy.enc, beEnc, h1]
      simp
      apply UInt8.toNat_inj.1; simp; omega
    have e2 : FTy.enc .u16 trx = [status, cmd] := by
      have a := status.toNat_lt; have b := cmd.toNat_lt
      simp only [FTy.enc, beEnc, h2]
      simp
      apply UInt8.toNat_inj.1; simp; omega
    have e3 : ∀ v : UInt8, FTy.enc .u8 v = [v] := by intro v; simp [FTy.enc]
    show [] ++ (FTy.enc .u8 status ++ (FTy.enc .u8 cmd ++ (FTy.enc .u16 session ++ (FTy.enc .u32 n ++ [])))) =
      FTy.enc .u16 trx ++ (FTy.enc .u8 hi ++ (FTy.enc .u8 lo ++ (FTy.enc .u32 n ++ [])))
    rw [e1, e2, e3, e3, e3, e3]
    rfl

theorem dropped_split (status cmd : UInt8) (session : UInt16) (n : UInt32) :
    ∃ y, LooksLike ⟨.gen .ACKDataDropped, (status, cmd, session, n, ()), none⟩ y := by
  have h1 := session.toNat_lt
  have h2 := status.toNat_lt
  have h3 := cmd.toNat_lt
  refine ⟨_, .dropped status cmd (UInt8.ofNat (session.toNat / 256)) (UInt8.ofNat (session.toNat % 256)) n session
    (UInt16.ofNat (256 * status.toNat + cmd.toNat)) ?_ ?_⟩
  · simp only [UInt8.toNat_ofNat']; omega
  · simp only [UInt16.toNat_ofNat']; omega

theorem msg_of_read {m m3 m4 : Bool} {p : Bytes} {i j : UInt32} {x y : Msg}
    (h1 : unmarshalCmd m p = .ret (m3, ⟨i, x.trx, .ptr x.type x.value⟩, none))
    (h2 : unmarshalCmd m p = .ret (m4, ⟨j, y.trx, .ptr y.type y.value⟩, none)) : x = y := by
  rw [h1] at h2
  obtain ⟨t, v, r⟩ := x
  obtain ⟨t', v', r'⟩ := y
  cases h2
  rfl

/-- One of the two is the exception. -/
theorem dropped_like {m m' : Bool} {t t' : TypeId} {v : t.Val} {v' : t'.Val} {trx trx' : Option UInt16} {p : Bytes} {x x' : Msg}
    (h : Sends m t v trx p x) (h' : Sends m' t' v' trx' p x') {n n' : Nat} (hs : FixedSize t.schema n) (hs' : FixedSize t'.schema n')
    (he : t = .gen .ACKDataDropped ∧ x.trx = none) (he' : ¬ (t' = .gen .ACKDataDropped ∧ x'.trx = none)) : LooksLike x x' := by
  obtain ⟨f1, f2⟩ := sends_form h hs
  obtain ⟨rfl, e2⟩ := he
  obtain ⟨xt, xv, xr⟩ := x
  simp only at f1 e2
  subst f1 e2
  obtain ⟨status, cmd, session, k, ⟨⟩⟩ := xv
  obtain ⟨y, hy⟩ := dropped_split status cmd session k
  have hb := looksLike_bytes hy
  suffices y = x' by subst this; exact hy
  generalize hq : (⟨.gen .ACKDataDropped, (status, cmd, session, k, ()), none⟩ : Msg) = q at hy hb
  cases hy with
  | dropped status cmd hi lo k session trx h1 h2 =>
    simp only [Msg.mk.injEq, heq_eq_eq, true_and, and_true, Prod.mk.injEq] at hq
    obtain ⟨rfl, rfl, rfl, rfl⟩ := hq
    have hs2 : FixedSize (TypeId.schema (.gen .ACKPending)) 6 := (structSize_iff _ _).1 rfl
    have hsend : Sends true (.gen .ACKPending) (hi, lo, k, ()) (some trx) p ⟨.gen .ACKPending, (hi, lo, k, ()), some trx⟩ := by
      refine ⟨⟨_, buildCommand_ptr _ _, ?_⟩, ?_⟩
      · rw [marshalCmd_eq]
        simp only [encodePayload_fixed (t := .gen .ACKPending) (n := 6) rfl, lingoID_id, cmdID_id, f2, Except.ok.injEq]
        have hid : handleCmdID true (TypeId.id (.gen .ACKPending)) = true := by decide +kernel
        rw [hid, List.append_assoc, List.append_assoc]
        exact congrArg _ hb.symm
      · have : (switchOfId ((registry.lookupID (.gen .ACKPending)).getD 0)).getD true = true := by
          rw [lookupID_eq]; decide +kernel
        rw [if_pos this]
    obtain ⟨m3, r1⟩ := sends_read hsend hs2 (by simp) true
    obtain ⟨m4, r2⟩ := sends_read h' hs' he' true
    exact msg_of_read r1 r2

/-- C102, messages of fixed size, exactly: two of them, sent in any modes with any transactions, have the same bytes just if they are
the same message with the same transaction, or one is an acknowledgement of dropped data without transaction and the other the
acknowledgement of a pending command it looks like. -/
theorem C102_fixed_iff (m m' : Bool) (t t' : TypeId) (v : t.Val) (v' : t'.Val) (trx trx' : Option UInt16) (p p' : Bytes) (x x' : Msg)
    (h : Sends m t v trx p x) (h' : Sends m' t' v' trx' p' x') (n n' : Nat) (hs : FixedSize t.schema n) (hs' : FixedSize t'.schema n') :
    p = p' ↔ x = x' ∨ LooksLike x x' ∨ LooksLike x' x := by
  constructor
  · rintro rfl
    by_cases he : t = .gen .ACKDataDropped ∧ x.trx = none
    · by_cases he' : t' = .gen .ACKDataDropped ∧ x'.trx = none
      · left
        obtain ⟨f1, f2⟩ := sends_form h hs
        obtain ⟨g1, g2⟩ := sends_form h' hs'
        obtain ⟨rfl, e2⟩ := he
        obtain ⟨rfl, e2'⟩ := he'
        obtain ⟨xt, xv, xr⟩ := x
        obtain ⟨yt, yv, yr⟩ := x'
        simp only at f1 g1 e2 e2'
        subst f1 g1 e2 e2'
        rw [g2] at f2
        have e := List.append_cancel_left f2
        have d1 := decStruct_encStruct ((structSize_iff _ _).2 hs) xv []
        have d2 := decStruct_encStruct ((structSize_iff _ _).2 hs) yv []
        simp only at e
        rw [← e, d2, Option.some.injEq] at d1
        rw [d1]
      · exact .inr (.inl (dropped_like h h' hs hs' he he'))
    · by_cases he' : t' = .gen .ACKDataDropped ∧ x'.trx = none
      · exact .inr (.inr (dropped_like h' h hs' hs he' he))
      · obtain ⟨m3, r1⟩ := sends_read h hs he true
        obtain ⟨m4, r2⟩ := sends_read h' hs' he' true
        exact .inl (msg_of_read r1 r2)
  · obtain ⟨f1, f2⟩ := sends_form h hs
    obtain ⟨g1, g2⟩ := sends_form h' hs'
    subst f1 g1
    rintro (rfl | hl | hl)
    · rw [f2, g2]
    · have hb := looksLike_bytes hl
      rw [f2, g2, List.append_assoc, List.append_assoc, hb]
      congr 1
      cases hl; rfl
    · have hb := looksLike_bytes hl
      rw [f2, g2, List.append_assoc, List.append_assoc, hb]
      congr 1
      cases hl; rfl

theorem readable_read {m : Bool} {t : TypeId} {v : t.Val} {trx : Option UInt16} {p : Bytes} {x : Msg} (h : Sends m t v trx p x)
    (hr : Readable m t v trx x) : ∃ m3, unmarshalCmd m p = .ret (m3, ⟨t.id, x.trx, .ptr x.type x.value⟩, none) := by
  rcases hr with ⟨⟨n, hs⟩, hx⟩ | ⟨h1, h2, h3⟩
  · exact sends_read h hs hx m
  · obtain ⟨⟨cmd, c1, c2⟩, rfl⟩ := h
    obtain ⟨cmd', pkt, e1, e2, e3, e4, e5⟩ := C15_var_roundtrip_partial t v h1 h2 trx m h3
    rw [c1] at e1
    cases e1
    have hst := e2
    rw [e2] at c2
    cases c2
    refine ⟨m, e3.trans ?_⟩
    rw [buildCommand_ptr] at c1
    cases c1
    rw [marshalCmd_eq] at hst
    have hm : handleCmdID m t.id = m := (Prod.mk.inj hst).1
    rw [lookupID_eq, Option.getD_some, ← switch_eq, hm]
    cases m with
    | true => rfl
    | false => cases trx with
      | none => rfl
      | some => simp at h3

/-- C102, all messages: two that a receiver can take back, sent in the same mode, have the same bytes only if they are the same, with
the same transaction. -/
theorem C102_unambiguous_partial (m : Bool) (t t' : TypeId) (v : t.Val) (v' : t'.Val) (trx trx' : Option UInt16) (p : Bytes) (x x' : Msg)
    (h : Sends m t v trx p x) (h' : Sends m t' v' trx' p x') (hr : Readable m t v trx x) (hr' : Readable m t' v' trx' x') : x = x' := by
  obtain ⟨m3, r1⟩ := readable_read h hr
  obtain ⟨m4, r2⟩ := readable_read h' hr'
  exact msg_of_read r1 r2

/-- C102 is false of the code in general: the texts of display-remote track infos are not sent, so that two artists have the same
bytes; and a name sent while transactions are on looks like another sent while they are off. -/
theorem C102_fails :
    (∃ (t : TypeId) (v v' : t.Val) (p : Bytes) (x x' : Msg), Sends false t v none p x ∧ Sends false t v' none p x' ∧ x ≠ x') ∧
    (∃ (t : TypeId) (v v' : t.Val) (trx : UInt16) (p : Bytes) (x x' : Msg), Sends true t v (some trx) p x ∧ Sends false t v' none p x' ∧
      Readable true t v (some trx) x ∧ Readable false t v' none x' ∧ x ≠ x') := by
  refine ⟨⟨.disp .RetIndexedPlayingTrackInfo, (0x02, .artist [0x41], ()), (0x02, .artist [0x42], ()), [0x03, 0x13, 0x02], _, _,
    ⟨⟨_, buildCommand_ptr _ _, ?_⟩, rfl⟩, ⟨⟨_, buildCommand_ptr _ _, ?_⟩, rfl⟩, ?_⟩,
    .gen .ReturniPodName, ([0x43], ()), ([0x41, 0x42, 0x43], ()), 0x4142, [0x00, 0x08, 0x41, 0x42, 0x43], _, _,
    ⟨⟨_, buildCommand_ptr _ _, ?_⟩, rfl⟩, ⟨⟨_, buildCommand_ptr _ _, ?_⟩, rfl⟩, .inr ⟨.name _, id, rfl⟩, .inr ⟨.name _, id, rfl⟩, ?_⟩
  · decide +kernel
  · decide +kernel
  · intro e
    simp at e
  · decide +kernel
  · decide +kernel
  · intro e
    simp at e

/-- Hypotheses of `C102_unambiguous_partial`: a name and a version, with transactions. -/
example : Readable true (.gen .ReturniPodName) ([0x43], ()) (some 7) ⟨.gen .ReturniPodName, ([0x43], ()), some 7⟩ ∧
    Readable true (.gen .ReturniPodSoftwareVersion) (1, 2, 3, ()) (some 7) ⟨.gen .ReturniPodSoftwareVersion, (1, 2, 3, ()), some 7⟩ :=
  ⟨.inr ⟨.name _, id, rfl⟩, .inl ⟨⟨3, (structSize_iff _ _).1 rfl⟩, by simp⟩⟩

example : Sends true (.gen .ReturniPodSoftwareVersion) (1, 2, 3, ()) (some 7) [0x00, 0x0A, 0x00, 0x07, 1, 2, 3]
    ⟨.gen .ReturniPodSoftwareVersion, (1, 2, 3, ()), some 7⟩ :=
  ⟨⟨_, buildCommand_ptr _ _, by decide +kernel⟩, by
    have : (switchOfId ((registry.lookupID (.gen .ReturniPodSoftwareVersion)).getD 0)).getD true = true := by
      rw [lookupID_eq]; decide +kernel
    rw [if_pos this]⟩

/-- The exception. -/
example : LooksLike ⟨.gen .ACKDataDropped, (0x01, 0x02, 0x0304, 0x05060708, ()), none⟩
    ⟨.gen .ACKPending, (0x03, 0x04, 0x05060708, ()), some 0x0102⟩ := .dropped _ _ _ _ _ _ _ rfl rfl

end Props
