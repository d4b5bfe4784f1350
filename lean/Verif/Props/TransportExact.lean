import Verif.Props.Hid
import Verif.Props.Protocol

/-! # Properties C01, C08, C37 and C79, exactly: payloads of 256 bytes never arrive, wherever they are in a frame -/

namespace Props
open Go Spec Ipod Hid

/-! ## C08 -/

/-- C08, exactly: of the payloads a header can announce, those with one byte at least and not 256 are written in the wire format. -/
theorem C08_exact_iff (f p : Bytes) (h : p.length ≤ 65535) :
    (∃ ck, writePacket f p = (f ++ 0x55 :: (canonicalHeader p.length ++ p ++ [ck]), none) ∧
      byteSum (canonicalHeader p.length ++ p ++ [ck]) % 256 = 0) ↔ p ≠ [] ∧ p.length ≠ 256 := by
  constructor
  · rintro ⟨ck, h1, -⟩
    refine ⟨fun hp => ?_, fun hp => ?_⟩
    · have := (C07_error_iff_empty f p).1
      rw [h1] at this
      simp [hp] at this
    · obtain ⟨_, _, h2⟩ := C08_fails_at_256 f p hp
      exact h2 ck (by rw [h1])
  · rintro ⟨h1, h2⟩
    exact C08_wire_format_partial f p (List.length_pos_iff.2 h1) h h2

example : ∃ ck, writePacket [] [1, 2, 3] = ([] ++ 0x55 :: (canonicalHeader 3 ++ [1, 2, 3] ++ [ck]), none) ∧
    byteSum (canonicalHeader 3 ++ [1, 2, 3] ++ [ck]) % 256 = 0 := (C08_exact_iff [] [1, 2, 3] (by simp)).2 (by simp)

/-! ## C01 -/

theorem twoStep (n : Nat) (p x y : Bytes) (hp : p.length = 2 * n) (h : p ++ x = 1 :: 0 :: (p ++ y)) :
    p = (List.replicate n [1, 0]).flatten := by
  induction n generalizing p with
  | zero => simpa using hp
  | succ n ih =>
    match p, hp with
    | a :: b :: p', hp =>
      simp only [List.cons_append, List.cons.injEq] at h
      obtain ⟨rfl, rfl, h⟩ := h
      have := ih p' (by simp at hp; omega) h
      rw [List.replicate_succ, List.flatten_cons, ← this]
      rfl

/-- C01, the exception, in any frame: whatever follows the packet of a payload of 256 bytes, the payload is not read. -/
theorem C01_fails_at_256_within (p rest spare : Bytes) (h : p.length = 256) (f : Slice) :
    readPacket ⟨(writePacket [] p).1 ++ rest, spare⟩ ≠ .ret (f, .ok p) := by
  have hp : p ≠ [] := by rintro rfl; simp at h
  rw [writePacket_ne _ p hp]
  intro hc
  obtain ⟨_, j, w, hj, ⟨hdr, ck, hl, rfl, _⟩, he⟩ := readPacket_sound _ _ _ _ hc
  rw [h] at hl he
  cases j with
  | cons b j =>
    simp only [List.nil_append, List.cons_append, List.cons.injEq] at he
    exact hj (by rw [← he.1]; simp)
  | nil =>
    rcases hl with ⟨b, _, hb, _⟩ | ⟨hi, lo, hb, rfl⟩
    · have := b.toNat_lt; omega
    · have e0 : writtenHeader 256 = [0] := by decide
      have a := hi.toNat_lt; have b := lo.toNat_lt
      have e1 : hi = 1 := by apply UInt8.toNat_inj.1; simp; omega
      have e2 : lo = 0 := by apply UInt8.toNat_inj.1; simp; omega
      subst e1 e2
      rw [e0] at he
      simp only [List.nil_append, List.cons_append, List.append_assoc, List.cons.injEq, true_and] at he
      have hpat := twoStep 128 p _ _ h he
      rw [hpat] at he
      have : checksum ([0] ++ (List.replicate 128 [1, 0]).flatten) = 1 := by
        have g := congrArg (·[256]?) he
        rw [List.getElem?_append_right (by decide +kernel)] at g
        rw [List.getElem?_cons_succ, List.getElem?_cons_succ, List.getElem?_append_left (by decide +kernel)] at g
        have e3 : ((List.replicate 128 [1, 0]).flatten : Bytes)[254]? = some 1 := by decide +kernel
        have e4 : 256 - ((List.replicate 128 [1, 0]).flatten : Bytes).length = 0 := by decide +kernel
        rw [e3, e4] at g
        simpa using g
      revert this
      decide +kernel

example (f : Slice) : readPacket ⟨(writePacket [] (List.replicate 256 7)).1 ++ [1, 2, 3], [4]⟩ ≠ .ret (f, .ok (List.replicate 256 7)) :=
  C01_fails_at_256_within _ _ _ List.length_replicate f

/-! ## C37 -/

theorem writePackets_cons (p : Bytes) (ps : List Bytes) :
    writePackets newPacketWriter (p :: ps) = (writePacket [] p).1 ++ writePackets newPacketWriter ps := by
  have key : ∀ (ps : List Bytes) (f : Bytes), writePackets f ps = f ++ writePackets [] ps := by
    intro ps
    induction ps with
    | nil => intro f; simp [writePackets]
    | cons p ps ih =>
      intro f
      have e : (writePacket f p).1 = f ++ (writePacket [] p).1 := by
        by_cases hp : p = []
        · subst hp; simp [writePacket_nil]
        · simp [writePacket_ne _ _ hp]
      simp only [writePackets, List.foldl_cons] at ih ⊢
      rw [ih, ih (writePacket [] p).1, e, List.append_assoc]
  exact key ps _

/-- What the packet reader gets out of a written frame, exactly. -/
theorem callReader_written (ps : List Bytes) (h : ∀ q ∈ ps, 1 ≤ q.length ∧ q.length ≤ 65535) (rest spare : Bytes) (k : Nat)
    (rs : List PktResult)
    (hc : callReader (ps.length + k) ⟨writePackets newPacketWriter ps ++ rest, spare⟩ = .ret (ps.map .ok ++ rs)) :
    ∀ q ∈ ps, q.length ≠ 256 := by
  induction ps with
  | nil => simp
  | cons p ps ih =>
    obtain ⟨h1, h2⟩ := h p (by simp)
    rw [writePackets_cons, show (p :: ps).length + k = (ps.length + k) + 1 by simp; omega] at hc
    simp only [callReader, List.append_assoc] at hc
    by_cases hp : p.length = 256
    · exfalso
      have hf := C01_fails_at_256_within p (writePackets newPacketWriter ps ++ rest) spare hp
      cases hr : readPacket ⟨(writePacket [] p).1 ++ (writePackets newPacketWriter ps ++ rest), spare⟩ with
      | panic => rw [hr] at hc; cases hc
      | ret x =>
        obtain ⟨f, r⟩ := x
        rw [hr] at hc hf
        simp only [Out.bind_ret] at hc
        cases hq : callReader (ps.length + k) f with
        | panic => rw [hq] at hc; cases hc
        | ret y =>
          rw [hq] at hc
          simp only [Out.bind_ret, Out.ret.injEq, List.map_cons, List.cons_append, List.cons.injEq] at hc
          exact hf f (by rw [hc.1])
    · rw [(C01_packet_roundtrip_partial p _ spare h1 h2 hp).2] at hc
      simp only [Out.bind_ret] at hc
      cases hq : callReader (ps.length + k) ⟨writePackets newPacketWriter ps ++ rest, spare⟩ with
      | panic => rw [hq] at hc; cases hc
      | ret y =>
        rw [hq] at hc
        simp only [Out.bind_ret, Out.ret.injEq, List.map_cons, List.cons_append, List.cons.injEq, true_and] at hc
        rw [hc] at hq
        intro q hq'
        rcases List.mem_cons.1 hq' with rfl | hq'
        · exact hp
        · exact ih (fun q hq => h q (by simp [hq])) hq q hq'

/-- C37, exactly: all frames arrive packet for packet just if no payload has 256 bytes. -/
theorem C37_end_to_end_iff (grow : Growth) (defs : List ReportDef) (hg : GoodTable defs)
    (hmax : ∀ d ∈ defs, d.maxPayload ≤ 1022) (frames : List (List Bytes × List Report))
    (h : ∀ p ∈ frames, p.1 ≠ [] ∧ (∀ q ∈ p.1, 1 ≤ q.length ∧ q.length ≤ 65535) ∧
      Written defs (writePackets newPacketWriter p.1) p.2) (buf : Slice) :
    receive grow defs (frames.map fun p => p.1.length + 1)
      (frames.flatMap fun p => p.2.map fun r => (⟨rawReportBytes r, none⟩ : ReadRes)) buf =
      .ret (frames.map fun p => .ok (p.1.map .ok ++ [.error .eof])) ↔
    ∀ p ∈ frames, ∀ q ∈ p.1, q.length ≠ 256 := by
  constructor
  · intro hrec
    induction frames generalizing buf with
    | nil => simp
    | cons p frames ih =>
      obtain ⟨ps, rs⟩ := p
      obtain ⟨h1, h2, h3⟩ := h (ps, rs) (by simp)
      simp only at h1 h2 h3
      have hne : writePackets newPacketWriter ps ≠ [] := by
        cases ps with
        | nil => exact absurd rfl h1
        | cons p ps =>
          have hp : p ≠ [] := by
            rintro rfl
            have := (h2 [] (by simp)).1
            simp at this
          rw [writePackets_cons, writePacket_ne _ _ hp]
          simp
      have hraw : (rs.map fun r => (⟨rawReportBytes r, none⟩ : ReadRes)).map rawReadReport = rs.map .ok := by
        rw [List.map_map]
        apply List.map_congr_left
        intro r hr
        obtain ⟨d, d1, _, _, d4⟩ := C31_fits_descriptor defs hg _ hne rs h3 r hr
        have := hg.carries d d1
        have := hmax d d1
        have hm : d.maxPayload = d.len - 1 := rfl
        exact C35_raw_roundtrip r (by omega) (by omega)
      simp only [List.map_cons, List.flatMap_cons] at hrec
      rw [receive, List.map_append, hraw] at hrec
      obtain ⟨buf', f, pad, e1, e2, e3, _⟩ := C29_frame_roundtrip grow defs hg _ hne rs h3
        ((frames.flatMap fun p => p.2.map fun r => (⟨rawReportBytes r, none⟩ : ReadRes)).map rawReadReport) buf
      rw [e1] at hrec
      obtain ⟨fd, fs⟩ := f
      simp only at e2 hrec
      subst e2
      cases hc : callReader (ps.length + 1) ⟨writePackets newPacketWriter ps ++ pad, fs⟩ with
      | panic => rw [hc] at hrec; cases hrec
      | ret got =>
        rw [hc] at hrec
        simp only [Out.bind_ret] at hrec
        have hdrop : ∀ (a b : List ReadRes), (a ++ b).drop ((a ++ b).length - (b.map rawReadReport).length) = b := by
          intro a b
          rw [List.length_append, List.length_map, Nat.add_sub_cancel, List.drop_left]
        rw [hdrop] at hrec
        cases hm : receive grow defs (frames.map fun p => p.1.length + 1)
            (frames.flatMap fun p => p.2.map fun r => (⟨rawReportBytes r, none⟩ : ReadRes)) buf' with
        | panic => rw [hm] at hrec; cases hrec
        | ret more =>
          rw [hm] at hrec
          simp only [Out.bind_ret, Out.ret.injEq, List.cons.injEq, Except.ok.injEq] at hrec
          obtain ⟨g1, g2⟩ := hrec
          rw [g1] at hc
          rw [g2] at hm
          intro p hp
          rcases List.mem_cons.1 hp with rfl | hp
          · exact callReader_written ps h2 pad fs 1 _ hc
          · exact ih (fun q hq => h q (by simp [hq])) buf' hm p hp
  · intro hx
    exact C37_end_to_end_partial grow defs hg hmax frames
      (fun p hp => ⟨(h p hp).1, fun q hq => ⟨((h p hp).2.1 q hq).1, ((h p hp).2.1 q hq).2, hx p hp q hq⟩, (h p hp).2.2⟩) buf

/-- A frame of two packets, the second of 256 bytes, does not arrive. -/
example (p : Bytes) (hp : p.length = 256) : ∃ rs, Written defaultReportDefs (writePackets newPacketWriter [[1], p]) rs ∧
    receive (fun _ _ => 5) defaultReportDefs [3] (rs.map fun r => ⟨rawReportBytes r, none⟩) ⟨[], []⟩ ≠
      .ret [.ok [.ok [1], .ok p, .error .eof]] := by
  have hne : writePackets newPacketWriter [[1], p] ≠ [] := by
    rw [writePackets_cons]
    intro hn
    have := congrArg List.length hn
    rw [writePacket_ne _ _ (by simp)] at this
    simp at this
  obtain ⟨rs, hw, _⟩ := C29_written defaultReportDefs goodTable_default (writePackets newPacketWriter [[1], p]) hne
  refine ⟨rs, hw, ?_⟩
  intro hc
  have := (C37_end_to_end_iff (fun _ _ => 5) defaultReportDefs goodTable_default (by decide) [([[1], p], rs)]
    (by
      intro q hq
      rw [List.mem_singleton.1 hq]
      refine ⟨by simp, ?_, hw⟩
      intro q hq
      rcases List.mem_cons.1 hq with rfl | hq
      · decide
      · rw [List.mem_singleton.1 hq, hp]; decide) ⟨[], []⟩).1 (by simpa using hc)
  exact this _ (List.mem_singleton.2 rfl) p (by simp) hp

/-! ## C79 -/

/-- C79, exactly: a body of the right length, after an id and perhaps a transaction, is received as the message of the table just if it is
not `ACKDataDropped` without transaction. -/
theorem C79_received_iff (r : WireRow) (hr : r ∈ wireTable) (ws : List WireField) (hw : r.fields = some ws) (trx : Option UInt16)
    (body : Bytes) (hb : body.length = wireSize ws) (m : Bool) :
    (∃ m' t v, unmarshalCmd m (idBytes r.lingo r.cmd ++ transactionBytes trx ++ body) =
        .ret (m', ⟨idOf r.lingo r.cmd, trx, .ptr t v⟩, none) ∧
      t.typeName = r.name ∧ fieldValues t.schema v = readFields ws body) ↔
    ¬ (r.name = "general.ACKDataDropped" ∧ trx = none) := by
  constructor
  · rintro ⟨m', t, v, h1, h2, -⟩ ⟨hn, rfl⟩
    have hrow : ∀ r ∈ wireTable, r.name = "general.ACKDataDropped" →
        r.lingo = 0x00 ∧ r.cmd = 0x02 ∧ r.fields = some [.num 1, .num 1, .num 2, .num 4] := by decide +kernel
    obtain ⟨q1, q2, q3⟩ := hrow r hr hn
    rw [hw, Option.some.injEq] at q3
    subst q3
    match body, hb with
    | a :: b :: body', hb =>
      have hb' : body'.length = wireSize [.num 1, .num 1, .num 4] := by
        have e1 : wireSize [.num 1, .num 1, .num 2, .num 4] = 8 := by decide
        have e2 : wireSize [.num 1, .num 1, .num 4] = 6 := by decide
        rw [e1] at hb
        rw [e2]
        simpa using hb
      have ha := a.toNat_lt
      have hb2 := b.toNat_lt
      obtain ⟨m2, t2, v2, g1, g2, -⟩ := C79_received_partial
        ⟨0x00, 0x02, "general.ACKPending", some [.num 1, .num 1, .num 4]⟩ (by decide +kernel) _ rfl
        (some (UInt16.ofNat (256 * a.toNat + b.toNat))) body' hb' (by simp) m
      have ht : transactionBytes (some (UInt16.ofNat (256 * a.toNat + b.toNat))) = [a, b] := by
        simp only [transactionBytes, List.cons.injEq, and_true]
        constructor <;> apply UInt8.toNat_inj.1 <;> simp <;> omega
      simp only [ht] at g1
      rw [q1, q2] at h1
      simp only [transactionBytes, List.append_nil] at h1
      have hl : idBytes 0 2 ++ [a, b] ++ body' = idBytes 0 2 ++ a :: b :: body' := by simp
      rw [hl] at g1
      rw [g1] at h1
      cases h1
  · intro hx
    exact C79_received_partial r hr ws hw trx body hb hx m

example (m : Bool) : ∃ m' t v, unmarshalCmd m (idBytes 0x03 0x10 ++ transactionBytes (some 5) ++ [2, 0, 0, 0, 1, 0, 0, 1, 0, 0, 0, 0, 5]) =
      .ret (m', ⟨idOf 0x03 0x10, some 5, .ptr t v⟩, none) ∧ t.typeName = "dispremote.RetPlayStatus" ∧
      fieldValues t.schema v = readFields [.num 1, .num 4, .num 4, .num 4] [2, 0, 0, 0, 1, 0, 0, 1, 0, 0, 0, 0, 5] :=
  (C79_received_iff ⟨0x03, 0x10, "dispremote.RetPlayStatus", some [.num 1, .num 4, .num 4, .num 4]⟩ (by decide +kernel) _ rfl (some 5)
    [2, 0, 0, 0, 1, 0, 0, 1, 0, 0, 0, 0, 5] (by decide) m).2 (by simp)

end Props
