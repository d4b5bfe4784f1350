import Verif.Model.Packet
import Verif.Spec.Wire

namespace Ipod
open Go Spec

theorem toNat_foldl_add (p : Bytes) (a : UInt8) :
    (p.foldl (fun crc v => crc + v) a).toNat = (a.toNat + byteSum p) % 256 := by
  induction p generalizing a with
  | nil => simp [byteSum, Nat.mod_eq_of_lt a.toNat_lt]
  | cons x xs ih =>
    simp only [List.foldl_cons, ih, byteSum, List.map_cons, List.sum_cons, UInt8.toNat_add]
    simp only [byteSum] at ih
    omega

theorem byteSum_append (a b : Bytes) : byteSum (a ++ b) = byteSum a + byteSum b := by
  simp [byteSum]

@[simp] theorem byteSum_nil : byteSum [] = 0 := rfl
@[simp] theorem byteSum_cons (x : UInt8) (b : Bytes) : byteSum (x :: b) = x.toNat + byteSum b := by
  simp [byteSum]

theorem neg_toNat (x : UInt8) : (-x).toNat = (256 - x.toNat) % 256 := by
  simp

theorem checksum_toNat (p : Bytes) : (checksum p).toNat = (256 - byteSum p % 256) % 256 := by
  unfold checksum
  rw [neg_toNat, toNat_foldl_add]
  simp

theorem checksum_eq_zero (p : Bytes) : checksum p = 0 ↔ byteSum p % 256 = 0 := by
  rw [← UInt8.toNat_inj, checksum_toNat]
  simp
  omega

theorem byteSum_checksum (p : Bytes) : byteSum (p ++ [checksum p]) % 256 = 0 := by
  rw [byteSum_append]
  simp [checksum_toNat]
  omega

/-! ### Locating the start byte -/

theorem indexStart_none (b : Bytes) : indexStart b = none ↔ Filler b := by
  simp [indexStart, Filler, packetStartByte]
  constructor
  · intro h hm; simpa using h _ hm
  · intro h x hx
    rcases Decidable.em (x = 85) with hxe | hxe
    · subst hxe; exact absurd hx h
    · first | exact hxe | exact decide_eq_false hxe

theorem indexStart_append (j r : Bytes) (hj : Filler j) :
    indexStart (j ++ 0x55 :: r) = some j.length := by
  unfold indexStart
  rw [List.findIdx?_append]
  have : List.findIdx? (fun x => decide (x = packetStartByte)) j = none := (indexStart_none j).2 hj
  rw [this]
  simp [packetStartByte, List.findIdx?_cons]

theorem indexStart_some (b : Bytes) (n : Nat) (h : indexStart b = some n) :
    ∃ j r, b = j ++ 0x55 :: r ∧ Filler j ∧ n = j.length := by
  by_cases hf : Filler b
  · rw [(indexStart_none b).2 hf] at h; cases h
  · have hm : (0x55 : UInt8) ∈ b := by simpa [Filler] using hf
    obtain ⟨j, r, hb, hj⟩ := List.append_of_mem hm |> fun _ => List.eq_append_cons_of_mem hm
    refine ⟨j, r, hb, hj, ?_⟩
    rw [hb, indexStart_append j r hj] at h
    exact (Option.some.inj h).symm

/-- Every byte string is filler only, or filler, start byte and the rest. -/
theorem filler_or_start (b : Bytes) : Filler b ∨ ∃ j r, b = j ++ 0x55 :: r ∧ Filler j := by
  by_cases hf : Filler b
  · exact .inl hf
  · have hm : (0x55 : UInt8) ∈ b := by simpa [Filler] using hf
    obtain ⟨j, r, hb, hj⟩ := List.eq_append_cons_of_mem hm
    exact .inr ⟨j, r, hb, hj⟩

/-! ### readPacket in terms of the position of the start byte -/

theorem readPacket_filler (b s : Bytes) (h : Filler b) :
    readPacket ⟨b, s⟩ = .ret (⟨b, s⟩, .error .eof) := by
  simp [readPacket, (indexStart_none b).2 h]

/-- What happens after the start byte. -/
def afterStart (r s : Bytes) : Out (Slice × PktResult) :=
  parsePacket ⟨r, s⟩ >>= fun x =>
    match x.2 with
    | .error e => .ret (⟨r, s⟩, .error e)
    | .ok payload => (Slice.mk r s).fromLo x.1 >>= fun f => .ret (f, .ok payload)

theorem readPacket_start (j r s : Bytes) (hj : Filler j) :
    readPacket ⟨j ++ 0x55 :: r, s⟩ = afterStart r s := by
  simp only [readPacket, indexStart_append j r hj]
  have : (Slice.mk (j ++ 0x55 :: r) s).fromLo (j.length + 1) = .ret ⟨r, s⟩ := by
    simp [Slice.fromLo, Slice.len]
  rw [this]
  rfl

theorem parseHeader_short (r : Bytes) (h : r.length < 3) : parseHeader r = .error .unexpectedEOF := by
  match r, h with
  | [], _ => rfl
  | [_], _ => rfl
  | [_, _], _ => rfl

theorem parseHeader_ok (r : Bytes) (h : 3 ≤ r.length) : ∃ off len, parseHeader r = .ok (off, len) ∧
    off ≤ r.length ∧ LenHeader len (r.take off) ∧ 1 ≤ off ∧ off ≤ 3 := by
  match r, h with
  | b0 :: b1 :: b2 :: rest, _ =>
    by_cases hb : b0 = 0
    · subst hb
      exact ⟨3, b1.toNat * 256 + b2.toNat, by simp [parseHeader], by simp, by simpa using .inr ⟨b1, b2, rfl, rfl⟩, by omega, by omega⟩
    · refine ⟨1, b0.toNat, ?_, ?_, ?_, by omega, by omega⟩
      · simp [parseHeader, hb]
      · simp
      · simpa using .inl ⟨b0, hb, rfl, rfl⟩

/-- The header function on a header followed by enough bytes. -/
theorem parseHeader_of_LenHeader {n : Nat} {hdr : Bytes} (h : LenHeader n hdr) (r : Bytes)
    (hr : 3 ≤ (hdr ++ r).length) : parseHeader (hdr ++ r) = .ok (hdr.length, n) := by
  rcases h with ⟨b, hb, rfl, rfl⟩ | ⟨hi, lo, rfl, rfl⟩
  · match r, hr with
    | x :: y :: r', _ => simp [parseHeader, hb]
    | [_], h => simp at h
    | [], h => simp at h
  · simp [parseHeader]

/-- Outcome after the start byte when the header parses. -/
theorem afterStart_header (r s : Bytes) (off len : Nat) (hh : parseHeader r = .ok (off, len)) :
    afterStart r s =
      if r.length + s.length < off + len + 1 then .panic
      else if byteSum ((r ++ s).take (off + len + 1)) % 256 ≠ 0 then .ret (⟨r, s⟩, .error Err.checksum)
      else if r.length < off + len + 1 then .panic
      else .ret (⟨r.drop (off + len + 1), s⟩, .ok ((r.drop off).take len)) := by
  simp only [afterStart, parsePacket, hh]
  by_cases h1 : r.length + s.length < off + len + 1
  · have : (Slice.mk r s).upTo (off + len + 1) = .panic := by
      simp only [Slice.upTo, Slice.cap]; rw [if_neg (by omega)]
    simp [this, h1]
  · have : (Slice.mk r s).upTo (off + len + 1) =
        .ret ⟨(r ++ s).take (off + len + 1), (r ++ s).drop (off + len + 1)⟩ := by
      simp only [Slice.upTo, Slice.cap]; rw [if_pos (by omega)]
    rw [this]
    simp only [Out.bind_ret, h1, if_false]
    have hl : ((r ++ s).take (off + len + 1)).length = off + len + 1 := by
      simp; omega
    simp only [Slice.len, hl, Nat.lt_irrefl, if_false]
    by_cases hc : byteSum ((r ++ s).take (off + len + 1)) % 256 = 0
    · have hc' := (checksum_eq_zero _).2 hc
      simp only [hc', hc, ne_eq, not_true_eq_false, if_false]
      have hrange : (Slice.mk ((r ++ s).take (off + len + 1)) ((r ++ s).drop (off + len + 1))).range off (off + len)
          = .ret ⟨(((r ++ s)).take (off + len)).drop off, (r ++ s).drop (off + len)⟩ := by
        simp only [Slice.range, Slice.cap, List.take_append_drop]
        rw [if_pos]
        simp [List.length_take, List.length_drop]; omega
      rw [hrange]
      simp only [Out.bind_ret, Slice.fromLo, Slice.len]
      by_cases h2 : r.length < off + len + 1
      · have h3 : ¬ off + len + 1 ≤ r.length := by omega
        simp only [h2, h3, if_true, if_false, Out.bind_panic]
      · have h3 : off + len + 1 ≤ r.length := by omega
        simp only [h2, h3, if_true, if_false, Out.bind_ret]
        congr 3
        rw [List.take_append_of_le_length (by omega), List.drop_take]
        congr 1
        omega
    · have hc' : ¬ checksum ((r ++ s).take (off + len + 1)) = 0 := fun h => hc ((checksum_eq_zero _).1 h)
      simp [hc, hc']

theorem afterStart_short (r s : Bytes) (h : r.length < 3) :
    afterStart r s = .ret (⟨r, s⟩, .error .unexpectedEOF) := by
  simp [afterStart, parsePacket, parseHeader_short r h]

/-- The reader accepts every well-formed packet. -/
theorem readPacket_isPacket (j w p rest s : Bytes) (hj : Filler j) (hw : IsPacket p w) :
    readPacket ⟨j ++ w ++ rest, s⟩ = .ret (⟨rest, s⟩, .ok p) := by
  obtain ⟨hdr, ck, hh, rfl, hs⟩ := hw
  have e : j ++ 0x55 :: (hdr ++ p ++ [ck]) ++ rest = j ++ 0x55 :: (hdr ++ (p ++ ck :: rest)) := by simp
  rw [e, readPacket_start j _ s hj]
  have hlen : 3 ≤ (hdr ++ (p ++ ck :: rest)).length := by
    rcases hh with ⟨b, hb, hn, rfl⟩ | ⟨hi, lo, hn, rfl⟩
    · have : p.length ≠ 0 := by
        intro h0
        rw [hn] at h0
        exact hb (UInt8.toNat_inj.1 (by simpa using h0))
      simp; omega
    · simp
  rw [afterStart_header _ s _ _ (parseHeader_of_LenHeader hh _ hlen)]
  rw [if_neg (by simp; omega)]
  have ht : (hdr ++ (p ++ ck :: rest) ++ s).take (hdr.length + p.length + 1) = hdr ++ p ++ [ck] := by
    have : hdr ++ (p ++ ck :: rest) ++ s = (hdr ++ p ++ [ck]) ++ (rest ++ s) := by simp
    rw [this, List.take_append_of_le_length (by simp; omega), List.take_of_length_le (by simp; omega)]
  rw [ht, if_neg (by simpa using hs), if_neg (by simp; omega)]
  congr 2
  · have : hdr ++ (p ++ ck :: rest) = (hdr ++ p ++ [ck]) ++ rest := by simp
    rw [this, List.drop_append_of_le_length (by simp; omega), List.drop_of_length_le (by simp; omega)]
    rfl
  · simp

theorem take_split3 (r : Bytes) (off len : Nat) (h : off + len + 1 ≤ r.length) :
    ∃ ck, r.take (off + len + 1) = r.take off ++ (r.drop off).take len ++ [ck] := by
  refine ⟨r[off + len], ?_⟩
  rw [List.take_add_one, List.take_add, List.getElem?_eq_getElem (by omega)]
  simp

/-- Success implies a genuine packet inside the frame. -/
theorem readPacket_sound (d s p : Bytes) (f : Slice) (h : readPacket ⟨d, s⟩ = .ret (f, .ok p)) :
    f.spare = s ∧ ∃ j w, Filler j ∧ IsPacket p w ∧ d = j ++ w ++ f.data := by
  rcases filler_or_start d with hf | ⟨j, r, rfl, hj⟩
  · rw [readPacket_filler d s hf] at h; simp at h
  · rw [readPacket_start j r s hj] at h
    by_cases h3 : r.length < 3
    · rw [afterStart_short r s h3] at h; simp at h
    · obtain ⟨off, len, hh, hoff, hl, _, _⟩ := parseHeader_ok r (by omega)
      rw [afterStart_header r s off len hh] at h
      split at h
      · simp at h
      · split at h
        · simp at h
        · split at h
          · simp at h
          · rename_i h1 h2 h4
            simp only [Out.ret.injEq, Prod.mk.injEq, Except.ok.injEq] at h
            obtain ⟨rfl, rfl⟩ := h
            refine ⟨rfl, j, 0x55 :: r.take (off + len + 1), hj, ?_, by simp⟩
            have hd : (r.drop off).length ≥ len + 1 := by simp; omega
            have hpl : ((r.drop off).take len).length = len := by simp; omega
            obtain ⟨ck, hck⟩ := take_split3 r off len (by omega)
            refine ⟨r.take off, ck, ?_, ?_, ?_⟩
            · rw [hpl]; exact hl
            · rw [hck]
            · rw [← hck]
              rw [List.take_append_of_le_length (by omega)] at h2
              simpa using h2

end Ipod
