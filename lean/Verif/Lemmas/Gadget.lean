import Verif.Lemmas.EmulatorWire
import Verif.Lemmas.Record
import Verif.Model.Cli
import Verif.Spec.Gadget

/-!
# The server on the device file, compared with the specified gadget
-/

namespace Ipod
open Go Spec Hid Trace

/-! ### packets in a frame -/

theorem gadget_scan_cons {spare d : Bytes} {ps : List Bytes} {b : Bool} {x : UInt8} (hx : x ≠ 0x55) (h : Scan spare d ps b) :
    Scan spare (x :: d) ps b := by
  have hc : ∀ {j : Bytes}, Filler j → Filler (x :: j) := fun hj => by
    unfold Filler at *
    simp only [List.mem_cons, not_or]
    exact ⟨fun e => hx e.symm, hj⟩
  cases h with
  | done hf => exact .done (hc hf)
  | crash hj ho => exact .crash (j := x :: _) (hc hj) ho
  | packet hj hw hs => exact .packet (j := x :: _) (hc hj) hw hs
  | skip hj hp ho hs => exact .skip (j := x :: _) (hc hj) hp ho hs

theorem announced_header {d hdr r : Bytes} {n : Nat} (h : announced d = some (n, hdr, r)) :
    LenHeader n hdr ∧ d = hdr ++ r ∧ 3 ≤ d.length := by
  unfold announced at h
  split at h
  · cases h; exact ⟨.inr ⟨_, _, rfl, rfl⟩, rfl, by simp⟩
  · rename_i n' a b r' hne
    cases h
    refine ⟨.inl ⟨n', ?_, rfl, rfl⟩, rfl, by simp⟩
    rintro rfl
    exact hne rfl
  · cases h

theorem header_announced {n : Nat} {hdr r : Bytes} (h : LenHeader n hdr) (hl : 3 ≤ (hdr ++ r).length) :
    announced (hdr ++ r) = some (n, hdr, r) := by
  rcases h with ⟨b, hb, rfl, rfl⟩ | ⟨hi, lo, rfl, rfl⟩
  · match r, hl with
    | a :: c :: r, _ =>
      simp only [List.singleton_append]
      unfold announced
      split
      · rename_i e; simp only [List.cons.injEq] at e; exact absurd e.1 hb
      · rename_i e; cases e; rfl
      · rename_i h; exact absurd rfl (h _ _ _ _)
    | [a], h => simp at h
    | [], h => simp at h
  · rfl

theorem packetAt_some {d p rest : Bytes} (h : packetAt d = some (p, rest)) : ∃ w, IsPacket p w ∧ 0x55 :: d = w ++ rest := by
  unfold packetAt at h
  cases ha : announced d with
  | none => simp only [ha] at h; cases h
  | some x =>
    obtain ⟨n, hdr, r⟩ := x
    simp only [ha] at h
    split at h
    · cases h
    · rename_i hn
      split at h
      · rename_i hs
        simp only [Option.some.injEq, Prod.mk.injEq] at h
        obtain ⟨rfl, rfl⟩ := h
        obtain ⟨hh, rfl, _⟩ := announced_header ha
        have hlt : n < r.length := by omega
        have ht : r.take (n + 1) = r.take n ++ [r[n]] := by
          rw [List.take_succ_eq_append_getElem hlt]
        refine ⟨0x55 :: (hdr ++ r.take n ++ [r[n]]), ⟨hdr, r[n], ?_, rfl, ?_⟩, ?_⟩
        · rw [List.length_take, Nat.min_eq_left (by omega)]; exact hh
        · rw [List.append_assoc, ← ht]; exact hs
        · rw [List.cons_append, List.append_assoc hdr, ← ht, List.append_assoc, List.take_append_drop]
      · cases h

theorem packetAt_none {d : Bytes} (h : packetAt d = none) : ¬ PacketHere (0x55 :: d) := by
  rintro ⟨p, w, rest, ⟨hdr, ck, hh, rfl, hs⟩, e⟩
  simp only [List.cons_append, List.cons.injEq, true_and] at e
  have hl : 1 ≤ hdr.length := by rcases hh with ⟨_, _, _, rfl⟩ | ⟨_, _, _, rfl⟩ <;> simp
  have hl3 : 3 ≤ (hdr ++ (p ++ [ck] ++ rest)).length := by
    rcases hh with ⟨b, hb, hp, rfl⟩ | ⟨_, _, _, rfl⟩
    · have : 0 < b.toNat := Nat.pos_of_ne_zero fun h0 => hb (UInt8.toNat.inj h0)
      simp; omega
    · simp
  have ha := header_announced hh hl3
  have e' : d = hdr ++ (p ++ [ck] ++ rest) := by rw [e]; simp
  rw [← e'] at ha
  unfold packetAt at h
  simp only [ha] at h
  rw [if_neg (by simp)] at h
  have ht : (p ++ [ck] ++ rest).take (p.length + 1) = p ++ [ck] := by
    rw [List.take_append_of_le_length (by simp), List.take_of_length_le (by simp)]
  rw [ht, ← List.append_assoc, if_pos hs] at h
  cases h

theorem overruns_exceeds {spare d : Bytes} (h : Overruns spare d) :
    packetAt d = none ∧ ∃ n hdr r, announced d = some (n, hdr, r) ∧ r.length < n + 1 := by
  obtain ⟨hdr, body, n, rfl, hh, h3, hb, _⟩ := h
  have ha := header_announced hh h3
  refine ⟨?_, n, hdr, body, ha, hb⟩
  unfold packetAt
  simp only [ha, if_pos hb]

theorem packetsIn_packet {d p rest : Bytes} (h : packetAt d = some (p, rest)) : packetsIn (0x55 :: d) = p :: packetsIn rest := by
  rw [packetsIn.eq_def]
  simp only [if_true]
  split
  · rename_i h'; rw [h] at h'; cases h'; rfl
  · rename_i h'; rw [h] at h'; cases h'

theorem packetsIn_none {d : Bytes} (h : packetAt d = none) : packetsIn (0x55 :: d) = packetsIn d := by
  rw [packetsIn.eq_def]
  simp only [if_true]
  split
  · rename_i h'; rw [h] at h'; cases h'
  · rfl

theorem packetsIn_other {d : Bytes} {x : UInt8} (h : x ≠ 0x55) : packetsIn (x :: d) = packetsIn d := by
  rw [packetsIn.eq_def]
  simp only [if_neg h]

theorem exceeds_packet {d p rest : Bytes} (h : packetAt d = some (p, rest)) : exceeds (0x55 :: d) = exceeds rest := by
  rw [exceeds.eq_def]
  simp only [if_true]
  split
  · rename_i h'; rw [h] at h'; cases h'; rfl
  · rename_i h'; rw [h] at h'; cases h'

theorem exceeds_none {d : Bytes} (h : packetAt d = none) : exceeds (0x55 :: d) = ((match announced d with
    | some (n, _, r) => decide (r.length < n + 1)
    | none => false) || exceeds d) := by
  rw [exceeds.eq_def]
  simp only [if_true]
  split
  · rename_i h'; rw [h] at h'; cases h'
  · rfl

theorem exceeds_other {d : Bytes} {x : UInt8} (h : x ≠ 0x55) : exceeds (x :: d) = exceeds d := by
  rw [exceeds.eq_def]
  simp only [if_neg h]

/-- Whatever is behind the frame in memory: the packets are those of the specification, or it crashes, and that only if the
frame announces more than it has. -/
theorem scan_packetsIn (spare d : Bytes) : Scan spare d (packetsIn d) false ∨ (exceeds d = true ∧ ∃ ps, Scan spare d ps true) := by
  induction hn : d.length using Nat.strongRecOn generalizing d with
  | ind n ih =>
    subst hn
    match d with
    | [] =>
      left
      rw [packetsIn.eq_def]
      exact .done (by unfold Filler; simp)
    | x :: d =>
      by_cases hx : x = 0x55
      · subst hx
        cases hp : packetAt d with
        | some y =>
          obtain ⟨p, rest⟩ := y
          obtain ⟨w, hw, e⟩ := packetAt_some hp
          have hl : rest.length < (0x55 :: d).length := by
            have := packetAt_shorter hp
            simp only [List.length_cons]; omega
          have key : ∀ ps b, Scan spare rest ps b → Scan spare (0x55 :: d) (p :: ps) b := fun ps b h => by
            rw [e, ← List.nil_append w]
            exact .packet (by unfold Filler; simp) hw h
          rw [packetsIn_packet hp, exceeds_packet hp]
          rcases ih _ hl rest rfl with h | ⟨he, ps, h⟩
          · exact .inl (key _ _ h)
          · exact .inr ⟨he, _, key _ _ h⟩
        | none =>
          rw [packetsIn_none hp, exceeds_none hp]
          by_cases ho : Overruns spare d
          · right
            obtain ⟨_, n, hdr, r, ha, hr⟩ := overruns_exceeds ho
            refine ⟨by simp only [ha, hr, decide_true, Bool.true_or], [], ?_⟩
            exact .crash (j := []) (by unfold Filler; simp) ho
          · have key : ∀ ps b, Scan spare d ps b → Scan spare (0x55 :: d) ps b := fun ps b h =>
              .skip (j := []) (by unfold Filler; simp) (packetAt_none hp) ho h
            rcases ih d.length (by simp) d rfl with h | ⟨he, ps, h⟩
            · exact .inl (key _ _ h)
            · exact .inr ⟨by rw [he, Bool.or_true], _, key _ _ h⟩
      · rw [packetsIn_other hx, exceeds_other hx]
        rcases ih d.length (by simp) d rfl with h | ⟨he, ps, h⟩
        · exact .inl (gadget_scan_cons hx h)
        · exact .inr ⟨he, _, gadget_scan_cons hx h⟩

/-- A frame: answered as specified, deadly as specified, or a crash because it announces more than it has. -/
theorem frame_turn (clock : Clock) (s : Srv DevGeneral) (f : Slice) :
    (processFrame devGeneral clock s f = .panic ∧ exceeds f.data = true) ∨
    (processFrame devGeneral clock s f = .panic ∧ (podS s).hearsAll clock (packetsIn f.data) = none) ∨
    ∃ s' ss, processFrame devGeneral clock s f = .ret (s', ss.map (Say.frame s'.mode)) ∧
      (podS s).hearsAll clock (packetsIn f.data) = some (podS s', ss) := by
  rcases scan_packetsIn f.spare f.data with h | ⟨he, ps, h⟩
  · exact .inr (frame_heard clock s f h)
  · exact .inl ⟨(processFrame_panic h).2 (.inl rfl), he⟩

/-! ### reports -/

theorem find_rooms (legacy : Bool) (id : UInt8) :
    (find (Cli.table legacy) id.toNat).map (fun d => d.maxPayload) = ((rooms legacy).lookup id).map fun n : Nat => (n : Int) := by
  have h : ∀ (l : Bool) (n : Nat), n < 256 → (find (Cli.table l) (UInt8.ofNat n).toNat).map (fun d => d.maxPayload) =
      ((rooms l).lookup (UInt8.ofNat n)).map fun n : Nat => (n : Int) := by decide +kernel
  have := h legacy id.toNat id.toNat_lt
  rwa [UInt8.ofNat_toNat] at this

/-- The first device-to-host report with room, else the last one. -/
theorem gadget_pickLoop (n : Int) (defs : List ReportDef) (d : Option ReportDef) :
    pickLoop n .accIn defs d = (((defs.filter fun r => r.dir = .accIn).find? fun r => r.maxPayload ≥ n).or
      ((defs.filter fun r => r.dir = .accIn).getLast?.or d)) := by
  induction defs generalizing d with
  | nil => simp [pickLoop]
  | cons r rs ih =>
    by_cases hd : r.dir = .accIn
    · rw [List.filter_cons_of_pos (by simpa using hd)]
      by_cases hn : r.maxPayload ≥ n
      · simp [pickLoop, hd, hn]
      · simp only [pickLoop, hd, hn, if_true, if_false, ih, List.find?_cons, decide_false]
        cases (rs.filter fun r => r.dir = .accIn) with
        | nil => simp
        | cons a l => simp [List.getLast?_cons]
    · rw [List.filter_cons_of_neg (by simpa using hd)]
      simp only [pickLoop, hd, if_false, ih]

theorem pick_table (legacy : Bool) (n : Nat) : ∃ d, pick (Cli.table legacy) n .accIn = some d ∧
    byteOfInt d.id = (reportFor legacy n).1 ∧ d.maxPayload = ((reportFor legacy n).2 : Int) ∧ 1 ≤ (reportFor legacy n).2 := by
  have hbig : ∀ n : Nat, 767 ≤ n → ∀ l, pick (Cli.table l) n .accIn = some (if l then ⟨0x0C, 767, .accIn⟩ else ⟨0x09, 63, .accIn⟩) ∧
      reportFor l n = if l then (12, 766) else (9, 62) := by
    intro n hn l
    unfold pick
    rw [gadget_pickLoop]
    constructor
    · have : ((Cli.table l).filter fun r => r.dir = .accIn).find? (fun r => r.maxPayload ≥ (n : Int)) = none := by
        rw [List.find?_eq_none]
        have hm : ∀ l, ∀ r ∈ (Cli.table l).filter fun r => r.dir = .accIn, r.maxPayload ≤ 766 := by decide
        intro r hr
        have := hm l r hr
        simp only [ge_iff_le, decide_eq_true_eq]
        omega
      rw [this, Option.none_or]
      cases l <;> rfl
    · unfold reportFor
      have : (sendable l).find? (fun r => n ≤ r.2) = none := by
        rw [List.find?_eq_none]
        have hm : ∀ l, ∀ r ∈ sendable l, r.2 ≤ 766 := by decide
        intro r hr
        have := hm l r hr
        simp only [decide_eq_true_eq]
        omega
      rw [this]
      cases l <;> rfl
  by_cases hn : 767 ≤ n
  · obtain ⟨h1, h2⟩ := hbig n hn legacy
    rw [h1, h2]
    refine ⟨_, rfl, ?_⟩
    cases legacy <;> decide
  · have h : ∀ (l : Bool) (n : Nat), n < 767 → (pick (Cli.table l) n .accIn).any (fun d => decide
        (byteOfInt d.id = (reportFor l n).1 ∧ d.maxPayload = ((reportFor l n).2 : Int) ∧ 1 ≤ (reportFor l n).2)) = true := by
      decide +kernel
    have h := h legacy n (by omega)
    cases hd : pick (Cli.table legacy) n .accIn with
    | none => rw [hd] at h; cases h
    | some d =>
      rw [hd] at h
      simp only [Option.any_some, decide_eq_true_eq] at h
      exact ⟨d, rfl, h⟩

/-- A report as a structure. -/
def toReport : Bytes → Report
  | id :: lc :: d => ⟨id, lc, d⟩
  | _ => ⟨0, 0, []⟩

/-- Up to and with the first one that fails. -/
def gadgetUpToFail (fails : Nat → Option Err) (i : Nat) : List Report → List Report
  | [] => []
  | r :: rs =>
    match fails i with
    | none => r :: gadgetUpToFail fails (i + 1) rs
    | some _ => [r]

theorem gadget_write_loop (legacy : Bool) (fails : Fails) (data : Bytes) (fuel : Nat) : ∀ (log : List Report) (off : Nat) (d : Bytes),
    data.drop off = d → d.length < fuel →
    ∃ e, writeFrameLoop (Cli.table legacy) fails data fuel log off d.length =
      some (.ret (log ++ gadgetUpToFail fails log.length ((reportsOf legacy (decide (off = 0)) d).map toReport), e)) := by
  induction fuel with
  | zero => intro log off d _ h; omega
  | succ fuel ih =>
    intro log off d hd hl
    by_cases h0 : d = []
    · subst h0
      refine ⟨none, ?_⟩
      rw [reportsOf.eq_def]
      simp [writeFrameLoop, gadgetUpToFail]
    · have hpos := List.length_pos_iff.2 h0
      obtain ⟨rd, hp, hid, hmax, h1⟩ := pick_table legacy d.length
      rw [writeFrameLoop]
      rw [if_neg (by omega)]
      simp only [hp]
      rw [if_neg (by omega)]
      have hm : rd.maxPayload.toNat = (reportFor legacy d.length).2 := by omega
      rw [hm, hid, hd]
      rw [reportsOf.eq_def, dif_neg h0]
      simp only
      by_cases hle : d.length ≤ (reportFor legacy d.length).2
      · have hng : ¬ d.length > (reportFor legacy d.length).2 := by omega
        simp only [if_pos hle, if_neg hng, List.map_cons, List.map_nil, toReport, List.take_length]
        have hlc : (if off > 0 then linkControlContinue else linkControlDone) = if decide (off = 0) then 0x00 else 0x01 := by
          by_cases ho : off = 0
          · subst ho; rfl
          · rw [if_pos (by omega), decide_eq_false ho]; rfl
        rw [hlc]
        simp only [gadgetUpToFail]
        cases hf : fails log.length with
        | some e => exact ⟨some e, rfl⟩
        | none =>
          simp only [Nat.sub_self]
          match fuel, hl with
          | fuel + 1, _ => exact ⟨none, by rw [writeFrameLoop, if_pos rfl]⟩
          | 0, hl => exact absurd hl (by omega)
      · have hg : d.length > (reportFor legacy d.length).2 := by omega
        simp only [if_neg hle, if_pos hg, List.map_cons, toReport]
        have hlc : (if off = 0 then linkControlMoreToFollow else linkControlContinue ||| linkControlMoreToFollow) =
            if decide (off = 0) then 0x02 else 0x03 := by
          by_cases ho : off = 0
          · subst ho; rfl
          · rw [if_neg ho, decide_eq_false ho]; rfl
        rw [hlc]
        have hpad : (d.take (reportFor legacy d.length).2) ++
            List.replicate ((reportFor legacy d.length).2 - (d.take (reportFor legacy d.length).2).length) 0 =
            d.take (reportFor legacy d.length).2 := by
          rw [List.length_take, Nat.min_eq_left (by omega), Nat.sub_self]; simp
        rw [hpad]
        simp only [gadgetUpToFail]
        cases hf : fails log.length with
        | some e => exact ⟨some e, rfl⟩
        | none =>
          simp only
          have hmax1 : max (reportFor legacy d.length).2 1 = (reportFor legacy d.length).2 := by omega
          rw [hmax1]
          obtain ⟨e, he⟩ := ih (log ++ [⟨(reportFor legacy d.length).1, if decide (off = 0) then 0x02 else 0x03, d.take (reportFor legacy d.length).2⟩])
            (off + (reportFor legacy d.length).2) (d.drop (reportFor legacy d.length).2) (by rw [← hd, List.drop_drop])
            (by rw [List.length_drop]; omega)
          refine ⟨e, ?_⟩
          rw [List.length_drop] at he
          have hz : ¬ (off + (reportFor legacy d.length).2 = 0) := by omega
          rw [he, decide_eq_false hz]
          simp only [List.append_assoc, List.singleton_append, List.length_append, List.length_singleton]

theorem gadget_write_frame (legacy : Bool) (fails : Fails) (log : List Report) (frame : Bytes) :
    ∃ e, writeFrameFor (frame.length + 1) (Cli.table legacy) fails log frame =
      some (.ret (log ++ gadgetUpToFail fails log.length ((reportsOf legacy true frame).map toReport), e)) := by
  have := gadget_write_loop legacy fails frame (frame.length + 1) log 0 frame rfl (by omega)
  exact this

/-- All the frames. -/
def gadgetUpToFails (legacy : Bool) (fails : Nat → Option Err) (i : Nat) : List Bytes → List Report
  | [] => []
  | f :: fs =>
    let rs := gadgetUpToFail fails i ((reportsOf legacy true f).map toReport)
    rs ++ gadgetUpToFails legacy fails (i + rs.length) fs

theorem gadget_write_frames (legacy : Bool) (fails : Fails) (frames : List Bytes) : ∀ (log : List Report),
    writeFrames (Cli.table legacy) fails log frames = .ret (log ++ gadgetUpToFails legacy fails log.length frames) := by
  induction frames with
  | nil => intro log; simp [writeFrames, gadgetUpToFails]
  | cons f fs ih =>
    intro log
    obtain ⟨e, he⟩ := gadget_write_frame legacy fails log f
    simp only [writeFrames, he, ih, gadgetUpToFails, List.append_assoc, List.length_append]

/-- As an operation on the traced device. -/
def deedOp : Deed → TOp
  | .got r => .read r
  | .put b none => .write b ⟨b.length, none⟩
  | .put b (some e) => .write b ⟨0, some e⟩

theorem raw_toReport {b : Bytes} (h : 2 ≤ b.length) : rawReportBytes (toReport b) = b := by
  match b, h with
  | _ :: _ :: _, _ => rfl
  | [_], h => simp at h
  | [], h => simp at h

theorem reportsOf_long (legacy first : Bool) (frame : Bytes) : ∀ b ∈ reportsOf legacy first frame, 2 ≤ b.length := by
  induction hn : frame.length using Nat.strongRecOn generalizing frame first with
  | ind n ih =>
    intro b hb
    rw [reportsOf.eq_def] at hb
    split at hb
    · cases hb
    · rename_i h
      have := List.length_pos_iff.2 h
      simp only at hb
      split at hb
      · rw [List.mem_singleton] at hb; subst hb; simp
      · rcases List.mem_cons.1 hb with rfl | hb
        · simp
        · exact ih _ (by rw [List.length_drop]; omega) _ _ rfl b hb

theorem ops_puts (fails : Fails) (bs : List Bytes) : ∀ i, (∀ b ∈ bs, 2 ≤ b.length) →
    writeOps fails i (gadgetUpToFail fails i (bs.map toReport)) = (puts fails i bs).map deedOp ∧
    (gadgetUpToFail fails i (bs.map toReport)).length = (puts fails i bs).length := by
  induction bs with
  | nil => intro i _; exact ⟨rfl, rfl⟩
  | cons b bs ih =>
    intro i h
    have hb := raw_toReport (h b (List.mem_cons_self ..))
    obtain ⟨h1, h2⟩ := ih (i + 1) (fun x hx => h x (List.mem_cons_of_mem _ hx))
    simp only [List.map_cons, gadgetUpToFail, puts]
    cases hf : fails i with
    | none =>
      simp only [writeOps, hf, hb, h1, List.map_cons, deedOp, List.length_cons, h2, and_self]
    | some e =>
      simp only [writeOps, hf, hb, List.map_cons, List.map_nil, deedOp, List.length_cons, List.length_nil, and_self]

theorem gadget_writeOps_append (fails : Fails) (a b : List Report) : ∀ i, writeOps fails i (a ++ b) =
    writeOps fails i a ++ writeOps fails (i + a.length) b := by
  induction a with
  | nil => intro i; simp [writeOps]
  | cons x a ih =>
    intro i
    simp only [List.cons_append, writeOps, ih, List.length_cons]
    rw [show i + 1 + a.length = i + (a.length + 1) from by omega]

theorem ops_putsAll (legacy : Bool) (fails : Fails) (frames : List Bytes) : ∀ i,
    writeOps fails i (gadgetUpToFails legacy fails i frames) = (putsAll legacy fails i frames).map deedOp ∧
    (gadgetUpToFails legacy fails i frames).length = (putsAll legacy fails i frames).length := by
  induction frames with
  | nil => intro i; exact ⟨rfl, rfl⟩
  | cons f fs ih =>
    intro i
    obtain ⟨h1, h2⟩ := ops_puts fails (reportsOf legacy true f) i (reportsOf_long _ _ _)
    obtain ⟨h3, h4⟩ := ih (i + (puts fails i (reportsOf legacy true f)).length)
    simp only [gadgetUpToFails, putsAll, gadget_writeOps_append, h1, h2, h3, h4, List.map_append, List.length_append, and_self]

/-! ### the server -/

/-- The server, waiting for a read, as a gadget. -/
def gadgetOf (l : Live DevGeneral) : Gadget := ⟨podS l.srv, l.buf.data⟩

theorem raw_seen (legacy : Bool) (r : ReadRes) :
    match seen legacy r with
    | .eof => rawReadReport r = .error .eof
    | .nothing => (∃ e, e ≠ .eof ∧ rawReadReport r = .error e) ∨
        ∃ rep, rawReadReport r = .ok rep ∧ find (Cli.table legacy) rep.id.toNat = none
    | .report lc d => ∃ rep rd, rawReadReport r = .ok rep ∧ find (Cli.table legacy) rep.id.toNat = some rd ∧
        ¬ rd.maxPayload < 0 ∧ rep.linkControl = lc ∧ rep.data.take (min rep.data.length rd.maxPayload.toNat) = d := by
  unfold seen rawReadReport
  cases he : r.err with
  | some e =>
    by_cases hne : e = .eof
    · subst hne; rfl
    · cases e <;> first | exact absurd rfl hne | exact .inl ⟨_, hne, rfl⟩
  | none =>
    simp only
    rw [show maxRawSize = 1024 from rfl]
    match r.data.take 1024 with
    | [] => exact .inl ⟨_, by decide, rfl⟩
    | [_] => exact .inl ⟨_, by decide, rfl⟩
    | [_, _] => exact .inl ⟨_, by decide, rfl⟩
    | id :: lc :: b :: d =>
      have hf := find_rooms legacy id
      simp only
      cases hl : (rooms legacy).lookup id with
      | none =>
        rw [hl] at hf
        simp only
        refine .inr ⟨_, rfl, ?_⟩
        simpa using hf
      | some room =>
        rw [hl] at hf
        simp only [Option.map_some, Option.map_eq_some_iff] at hf
        obtain ⟨rd, hrd, hm⟩ := hf
        refine ⟨_, rd, rfl, hrd, by omega, rfl, ?_⟩
        simp only
        rw [show rd.maxPayload.toNat = room from by omega]
        rw [Nat.min_comm, ← List.take_take, List.take_length]

/-- One frame: answered as specified, deadly as specified, or a crash because it announces more than it has. -/
theorem live_frame (clock : Clock) (l : Live DevGeneral) (buf : Slice) :
    (l.frame devGeneral clock buf = .panic ∧ exceeds buf.data = true) ∨
    (l.frame devGeneral clock buf = .panic ∧ (podS l.srv).hearsAll clock (packetsIn buf.data) = none) ∨
    ∃ l' p ss, l.frame devGeneral clock buf = .ret l' ∧ (podS l.srv).hearsAll clock (packetsIn buf.data) = some (p, ss) ∧
      gadgetOf l' = ⟨p, []⟩ ∧ l'.written = l.written ++ ss.map (Say.frame p.trx) := by
  unfold Live.frame
  rcases frame_turn clock l.srv buf with ⟨h1, h2⟩ | ⟨h1, h2⟩ | ⟨s', ss, h1, h2⟩
  · exact .inl ⟨by rw [h1]; rfl, h2⟩
  · exact .inr (.inl ⟨by rw [h1]; rfl, h2⟩)
  · exact .inr (.inr ⟨_, _, ss, by rw [h1]; rfl, h2, rfl, rfl⟩)

theorem read_turn (legacy : Bool) (clock : Clock) (grow : Growth) (l : Live DevGeneral) (r : ReadRes) :
    (l.onRead devGeneral clock grow (Cli.table legacy) r = .panic ∧
      ∃ frame, completes legacy (gadgetOf l) r = some frame ∧ exceeds frame = true) ∨
    match (gadgetOf l).reads legacy clock r with
    | .ends => l.onRead devGeneral clock grow (Cli.table legacy) r = .ret none
    | .dies => l.onRead devGeneral clock grow (Cli.table legacy) r = .panic
    | .goes g' frames => ∃ l', l.onRead devGeneral clock grow (Cli.table legacy) r = .ret (some l') ∧ gadgetOf l' = g' ∧
        l'.written = l.written ++ frames := by
  have hs := raw_seen legacy r
  unfold Gadget.reads completes Live.onRead
  cases hr : seen legacy r with
  | eof =>
    rw [hr] at hs
    right
    simp only [hs]
    rfl
  | nothing =>
    rw [hr] at hs
    right
    rcases hs with ⟨e, he, h⟩ | ⟨rep, h, hf⟩
    · simp only [h, if_neg he]
      exact ⟨_, rfl, rfl, (List.append_nil _).symm⟩
    · simp only [h, hf]
      exact ⟨_, rfl, rfl, (List.append_nil _).symm⟩
  | report lc d =>
    rw [hr] at hs
    obtain ⟨rep, rd, h, hf, hn, hlc, hd⟩ := hs
    simp only [h, hf, if_neg hn, hlc, hd]
    have key : ∀ (buf : Slice) (frame : Bytes), buf.data = frame →
        (((l.frame devGeneral clock buf >>= fun l => Out.ret (some l)) = .panic ∧ ∃ f, some frame = some f ∧ exceeds f = true) ∨
        match (match (gadgetOf l).pod.hearsAll clock (packetsIn frame) with
          | none => Turn.dies
          | some (p, ss) => Turn.goes ⟨p, []⟩ (ss.map (Say.frame p.trx))) with
        | .ends => (l.frame devGeneral clock buf >>= fun l => Out.ret (some l)) = .ret none
        | .dies => (l.frame devGeneral clock buf >>= fun l => Out.ret (some l)) = .panic
        | .goes g' frames => ∃ l', (l.frame devGeneral clock buf >>= fun l => Out.ret (some l)) = .ret (some l') ∧ gadgetOf l' = g' ∧
            l'.written = l.written ++ frames) := by
      rintro buf frame rfl
      rcases live_frame clock l buf with ⟨h1, h2⟩ | ⟨h1, h2⟩ | ⟨l', p, ss, h1, h2, h3, h4⟩
      · exact .inl ⟨by rw [h1]; rfl, _, rfl, h2⟩
      · right
        have h2 : (gadgetOf l).pod.hearsAll clock (packetsIn buf.data) = none := h2
        simp only [h2, h1]
        rfl
      · right
        have h2 : (gadgetOf l).pod.hearsAll clock (packetsIn buf.data) = some (p, ss) := h2
        simp only [h2, h1]
        exact ⟨l', rfl, h3, h4⟩
    by_cases h0 : lc = 0x00
    · subst h0
      simp only [if_true]
      exact key _ _ (by simp)
    · have h0' : ¬ lc = linkControlDone := h0
      rw [if_neg h0', if_neg h0]
      by_cases h1 : lc = 0x01
      · subst h1
        simp only [if_true]
        rw [if_neg (by decide), if_neg (by decide)]
        exact key _ _ (by simp [gadgetOf])
      · have h1' : ¬ lc = linkControlContinue := h1
        rw [if_neg h1', if_neg h1]
        right
        by_cases h2 : lc = 0x02
        · subst h2
          rw [if_pos rfl, if_pos rfl]
          exact ⟨_, rfl, by simp [gadgetOf], (List.append_nil _).symm⟩
        · have h2' : ¬ lc = linkControlMoreToFollow := h2
          rw [if_neg h2, if_neg h2']
          by_cases h3 : lc = 0x03
          · subst h3
            rw [if_pos rfl, if_pos (show (0x03 : UInt8) = linkControlContinue ||| linkControlMoreToFollow from rfl)]
            exact ⟨_, rfl, by simp [gadgetOf], (List.append_nil _).symm⟩
          · have h3' : ¬ lc = linkControlContinue ||| linkControlMoreToFollow := h3
            rw [if_neg h3, if_neg h3']
            exact ⟨_, rfl, rfl, (List.append_nil _).symm⟩

/-- All that happens at the device. -/
theorem session_deeds (legacy : Bool) (clock : Clock) (grow : Growth) (fails : Fails) (reads : List ReadRes) :
    ∀ (l : Live DevGeneral) (log : List Report),
    session devGeneral clock grow (Cli.table legacy) fails reads l log =
        ((gadgetOf l).deeds legacy clock fails log.length reads).map deedOp ∨
      ∃ pre r post, reads = pre ++ r :: post ∧ Tempted legacy clock (gadgetOf l) pre r ∧
        session devGeneral clock grow (Cli.table legacy) fails reads l log =
          ((gadgetOf l).deeds legacy clock fails log.length pre).map deedOp ++ [.read r] := by
  induction reads with
  | nil => intro l log; exact .inl rfl
  | cons r reads ih =>
    intro l log
    simp only [session, Gadget.deeds]
    rcases read_turn legacy clock grow l r with ⟨h1, frame, h2, h3⟩ | h
    · right
      refine ⟨[], r, reads, rfl, ⟨_, frame, rfl, h2, h3⟩, ?_⟩
      simp only [h1]
      rfl
    · cases hr : (gadgetOf l).reads legacy clock r with
      | ends =>
        rw [hr] at h
        left
        simp only [h]
        rfl
      | dies =>
        rw [hr] at h
        left
        simp only [h]
        rfl
      | goes g' frames =>
        rw [hr] at h
        obtain ⟨l', h1, h2, h3⟩ := h
        simp only [h1]
        have hw : l'.written.drop l.written.length = frames := by rw [h3]; simp
        rw [hw, gadget_write_frames]
        simp only
        obtain ⟨h4, h5⟩ := ops_putsAll legacy fails frames log.length
        have hlog : (log ++ gadgetUpToFails legacy fails log.length frames).drop log.length = gadgetUpToFails legacy fails log.length frames := by simp
        rw [hlog, h4]
        have hlen : (log ++ gadgetUpToFails legacy fails log.length frames).length = log.length + (putsAll legacy fails log.length frames).length := by
          rw [List.length_append, h5]
        rcases ih l' (log ++ gadgetUpToFails legacy fails log.length frames) with ih | ⟨pre, r', post, rfl, ht, ih⟩
        · left
          rw [ih, h2, hlen]
          simp only [List.map_cons, List.map_append, deedOp]
        · right
          refine ⟨r :: pre, r', post, rfl, ?_, ?_⟩
          · obtain ⟨g'', frame, ha, hc, he⟩ := ht
            refine ⟨g'', frame, ?_, hc, he⟩
            simp only [Gadget.after, hr]
            rw [← h2]; exact ha
          · rw [ih, h2, hlen]
            simp only [Gadget.deeds, hr, List.map_cons, List.map_append, deedOp, List.cons_append, List.append_assoc]

end Ipod
