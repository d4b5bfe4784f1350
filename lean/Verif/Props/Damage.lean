import Verif.Spec.Damage
import Verif.Props.Packet

/-! # Property C100: what the checksum detects -/

namespace Props
open Go Spec Ipod

/-- Bytes read behind a start byte and a length header: taken for a payload with its checksum, or refused. -/
theorem read_as (j hdr q rest spare : Bytes) (ck : UInt8) (hj : Filler j) (hh : LenHeader q.length hdr)
    (h3 : 3 ≤ hdr.length + q.length + 1 + rest.length) :
    readPacket ⟨j ++ 0x55 :: (hdr ++ q ++ [ck]) ++ rest, spare⟩ =
      .ret (if byteSum (hdr ++ q ++ [ck]) % 256 = 0 then (⟨rest, spare⟩, .ok q)
        else noticed (hdr ++ q ++ [ck] ++ rest) spare) := by
  by_cases h : byteSum (hdr ++ q ++ [ck]) % 256 = 0
  · rw [if_pos h]
    exact readPacket_isPacket j _ q rest spare hj ⟨hdr, ck, hh, rfl, h⟩
  · rw [if_neg h]
    have e : j ++ 0x55 :: (hdr ++ q ++ [ck]) ++ rest = j ++ 0x55 :: (hdr ++ (q ++ ck :: rest)) := by simp
    have ht : (hdr ++ (q ++ ck :: rest) ++ spare).take (hdr.length + q.length + 1) = hdr ++ q ++ [ck] := by
      have : hdr ++ (q ++ ck :: rest) ++ spare = (hdr ++ q ++ [ck]) ++ (rest ++ spare) := by simp
      rw [this, List.take_append_of_le_length (by simp; omega), List.take_of_length_le (by simp; omega)]
    rw [e, readPacket_start j _ spare hj,
      afterStart_header _ spare _ _ (parseHeader_of_LenHeader hh _ (by simp; omega)), if_neg (by simp; omega), ht, if_pos h]
    simp [noticed]

theorem header_size {n : Nat} {hdr : Bytes} (h : LenHeader n hdr) : 3 ≤ hdr.length + n + 1 := by
  rcases h with ⟨b, hb, hn, rfl⟩ | ⟨hi, lo, hn, rfl⟩
  · have : n ≠ 0 := by
      intro h0
      rw [hn] at h0
      exact hb (UInt8.toNat_inj.1 (by simpa using h0))
    simp; omega
  · simp; omega

/-- C100. Payload and checksum of a packet replaced by any bytes of the same number: `ReadPacket` returns the altered
payload if the sum of the bytes is the same modulo 256, else the checksum error. -/
theorem C100_exact (j hdr p q rest spare : Bytes) (ck ck' : UInt8) (hj : Filler j)
    (hw : IsPacket p (0x55 :: (hdr ++ p ++ [ck]))) (hh : LenHeader p.length hdr) (hl : q.length = p.length) :
    readPacket ⟨j ++ 0x55 :: (hdr ++ q ++ [ck']) ++ rest, spare⟩ =
      .ret (if SameSum (q ++ [ck']) (p ++ [ck]) then (⟨rest, spare⟩, .ok q)
        else noticed (hdr ++ q ++ [ck'] ++ rest) spare) := by
  have h3 := header_size hh
  rw [read_as j hdr q rest spare ck' hj (hl ▸ hh) (by omega)]
  congr 1
  have hs : byteSum (hdr ++ p ++ [ck]) % 256 = 0 := by
    obtain ⟨hdr', ck'', hh', he, hs⟩ := hw
    rw [List.cons.injEq] at he
    rw [he.2]; exact hs
  have : byteSum (hdr ++ q ++ [ck']) % 256 = 0 ↔ SameSum (q ++ [ck']) (p ++ [ck]) := by
    unfold SameSum
    simp only [byteSum_append] at hs ⊢
    omega
  by_cases hc : SameSum (q ++ [ck']) (p ++ [ck])
  · rw [if_pos hc, if_pos (this.2 hc)]
  · rw [if_neg hc, if_neg (fun h => hc (this.1 h))]

theorem byteSum_perm {a b : Bytes} (h : a.Perm b) : byteSum a = byteSum b := by
  exact (h.map UInt8.toNat).sum_nat

/-- C100, order: payload bytes delivered in any other order are never detected; `ReadPacket` returns them as they are. -/
theorem C100_reordered (j p q rest spare : Bytes) (hj : Filler j) (h0 : 1 ≤ p.length) (h1 : p.length ≤ 65535)
    (h2 : p.length ≠ 256) (hp : q.Perm p) :
    ∃ hdr ck, (writePacket [] p).1 = 0x55 :: (hdr ++ p ++ [ck]) ∧
      readPacket ⟨j ++ 0x55 :: (hdr ++ q ++ [ck]) ++ rest, spare⟩ = .ret (⟨rest, spare⟩, .ok q) := by
  obtain ⟨w, hw, he⟩ := writePacket_isPacket p h0 h1 h2
  obtain ⟨hdr, ck, hh, rfl, hs⟩ := hw
  refine ⟨hdr, ck, by rw [he]; simp, ?_⟩
  rw [C100_exact j hdr p q rest spare ck ck hj ⟨hdr, ck, hh, rfl, hs⟩ hh hp.length_eq, if_pos]
  unfold SameSum
  rw [byteSum_append, byteSum_append, byteSum_perm hp]

theorem flip_toNat (b : UInt8) (k : Fin 8) :
    (flipBit b k).toNat + (if hasBit b k then 2 ^ k.val else 0) = b.toNat + (if hasBit b k then 0 else 2 ^ k.val) := by
  have h : ∀ n : Fin 256, ∀ k : Fin 8, (flipBit (UInt8.ofNat n.val) k).toNat +
      (if hasBit (UInt8.ofNat n.val) k then 2 ^ k.val else 0) =
      (UInt8.ofNat n.val).toNat + (if hasBit (UInt8.ofNat n.val) k then 0 else 2 ^ k.val) := by decide +kernel
  have := h ⟨b.toNat, b.toNat_lt⟩ k
  simpa using this

theorem flips_sum : ∀ (k l : Fin 8) (u v : Bool),
    (((if u then 0 else 2 ^ k.val) + (if v then 0 else 2 ^ l.val)) % 256 =
      ((if u then 2 ^ k.val else 0) + (if v then 2 ^ l.val else 0)) % 256) ↔ (k = l ∧ (k = 7 ∨ u ≠ v)) := by
  decide +kernel

/-- C100, two inverted bits in two bytes of a payload: detected unless they are the same bit, set in one of the bytes and not
in the other, or the highest bits of both. -/
theorem C100_two_bits (j hdr s t u rest spare : Bytes) (a b ck : UInt8) (k l : Fin 8) (hj : Filler j)
    (hw : IsPacket (s ++ a :: t ++ b :: u) (0x55 :: (hdr ++ (s ++ a :: t ++ b :: u) ++ [ck])))
    (hh : LenHeader (s ++ a :: t ++ b :: u).length hdr) :
    readPacket ⟨j ++ 0x55 :: (hdr ++ (s ++ flipBit a k :: t ++ flipBit b l :: u) ++ [ck]) ++ rest, spare⟩ =
      .ret (if Unnoticed a k b l then (⟨rest, spare⟩, .ok (s ++ flipBit a k :: t ++ flipBit b l :: u))
        else noticed (hdr ++ (s ++ flipBit a k :: t ++ flipBit b l :: u) ++ [ck] ++ rest) spare) := by
  rw [C100_exact j hdr _ _ rest spare ck ck hj hw hh (by simp)]
  congr 1
  have h : SameSum ((s ++ flipBit a k :: t ++ flipBit b l :: u) ++ [ck]) ((s ++ a :: t ++ b :: u) ++ [ck]) ↔
      Unnoticed a k b l := by
    have h1 := flip_toNat a k
    have h2 := flip_toNat b l
    have h3 := flips_sum k l (hasBit a k) (hasBit b l)
    unfold SameSum Unnoticed
    have h4 : (k = l ∧ (k = 7 ∨ hasBit a k ≠ hasBit b k)) ↔ (k = l ∧ (k = 7 ∨ hasBit a k ≠ hasBit b l)) := by
      constructor <;> (rintro ⟨rfl, h⟩; exact ⟨rfl, h⟩)
    rw [h4, ← h3]
    simp only [byteSum_append, byteSum_cons]
    omega
  by_cases hc : Unnoticed a k b l
  · rw [if_pos hc, if_pos (h.2 hc)]
  · rw [if_neg hc, if_neg (fun h' => hc (h.1 h'))]

/-- C100, a lost byte: of a payload that loses the byte `x`, followed by the byte `y`, `ReadPacket` returns the remaining
bytes, with the checksum for the last of them, if `x = y`; else the checksum error. -/
theorem C100_lost (j hdr s t rest spare : Bytes) (x y ck : UInt8) (hj : Filler j)
    (hw : IsPacket (s ++ x :: t) (0x55 :: (hdr ++ (s ++ x :: t) ++ [ck]))) (hh : LenHeader (s ++ x :: t).length hdr) :
    readPacket ⟨j ++ 0x55 :: (hdr ++ (s ++ t) ++ [ck]) ++ y :: rest, spare⟩ =
      .ret (if x = y then (⟨rest, spare⟩, .ok (s ++ t ++ [ck]))
        else noticed (hdr ++ (s ++ t) ++ [ck] ++ y :: rest) spare) := by
  have h := C100_exact j hdr (s ++ x :: t) (s ++ t ++ [ck]) rest spare ck y hj hw hh (by simp)
  have e : j ++ 0x55 :: (hdr ++ (s ++ t ++ [ck]) ++ [y]) ++ rest = j ++ 0x55 :: (hdr ++ (s ++ t) ++ [ck]) ++ y :: rest := by
    simp
  have e' : hdr ++ (s ++ t ++ [ck]) ++ [y] ++ rest = hdr ++ (s ++ t) ++ [ck] ++ y :: rest := by simp
  rw [e, e'] at h
  rw [h]
  congr 1
  have hx : SameSum (s ++ t ++ [ck] ++ [y]) (s ++ x :: t ++ [ck]) ↔ x = y := by
    rw [← UInt8.toNat_inj]
    have := x.toNat_lt
    have := y.toNat_lt
    unfold SameSum
    simp only [byteSum_append, byteSum_cons, byteSum_nil]
    omega
  by_cases hc : x = y
  · rw [if_pos hc, if_pos (hx.2 hc)]
  · rw [if_neg hc, if_neg (fun h' => hc (hx.1 h'))]

/-- C100, between packets: a byte lost from a packet followed by another packet goes undetected exactly if it is a start byte. -/
theorem C100_lost_before_packet (j hdr s t w p' rest spare : Bytes) (x ck : UInt8) (hj : Filler j)
    (hw : IsPacket (s ++ x :: t) (0x55 :: (hdr ++ (s ++ x :: t) ++ [ck]))) (hh : LenHeader (s ++ x :: t).length hdr)
    (hw' : IsPacket p' w) :
    (∃ f p, readPacket ⟨j ++ 0x55 :: (hdr ++ (s ++ t) ++ [ck]) ++ w ++ rest, spare⟩ = .ret (f, .ok p)) ↔ x = 0x55 := by
  obtain ⟨hdr', ck', _, rfl, _⟩ := hw'
  have h := C100_lost j hdr s t (hdr' ++ p' ++ [ck'] ++ rest) spare x 0x55 ck hj hw hh
  have e : j ++ 0x55 :: (hdr ++ (s ++ t) ++ [ck]) ++ 0x55 :: (hdr' ++ p' ++ [ck']) ++ rest =
      j ++ 0x55 :: (hdr ++ (s ++ t) ++ [ck]) ++ 0x55 :: (hdr' ++ p' ++ [ck'] ++ rest) := by simp
  rw [e, h]
  by_cases hx : x = 0x55
  · rw [if_pos hx]
    exact ⟨fun _ => hx, fun _ => ⟨_, _, rfl⟩⟩
  · rw [if_neg hx]
    constructor
    · rintro ⟨f, p, hp⟩
      simp [noticed] at hp
    · intro h; exact absurd h hx

/-- C100, an additional byte: of a payload that gets the byte `x` inserted, `ReadPacket` returns the first bytes if `x` is the
checksum, leaving the rest to read; else the checksum error. -/
theorem C100_inserted (j hdr s t rest spare : Bytes) (x ck : UInt8) (hj : Filler j)
    (hw : IsPacket (s ++ t) (0x55 :: (hdr ++ (s ++ t) ++ [ck]))) (hh : LenHeader (s ++ t).length hdr) (q : Bytes) (z : UInt8)
    (hq : s ++ x :: t = q ++ [z]) :
    readPacket ⟨j ++ 0x55 :: (hdr ++ (s ++ x :: t) ++ [ck]) ++ rest, spare⟩ =
      .ret (if x = ck then (⟨ck :: rest, spare⟩, .ok q) else noticed (hdr ++ (s ++ x :: t) ++ [ck] ++ rest) spare) := by
  have hl : q.length = (s ++ t).length := by
    have := congrArg List.length hq
    simp at this ⊢
    omega
  have hsum : byteSum s + (x.toNat + byteSum t) = byteSum q + z.toNat := by
    have := congrArg byteSum hq
    simpa [byteSum_append] using this
  have h := C100_exact j hdr (s ++ t) q (ck :: rest) spare ck z hj hw hh hl
  have e : j ++ 0x55 :: (hdr ++ q ++ [z]) ++ ck :: rest = j ++ 0x55 :: (hdr ++ (s ++ x :: t) ++ [ck]) ++ rest := by
    rw [hq]; simp
  have e' : hdr ++ q ++ [z] ++ ck :: rest = hdr ++ (s ++ x :: t) ++ [ck] ++ rest := by rw [hq]; simp
  rw [e, e'] at h
  rw [h]
  congr 1
  have hx : SameSum (q ++ [z]) (s ++ t ++ [ck]) ↔ x = ck := by
    rw [← UInt8.toNat_inj]
    have := x.toNat_lt
    have := ck.toNat_lt
    unfold SameSum
    simp only [byteSum_append, byteSum_cons, byteSum_nil]
    omega
  by_cases hc : x = ck
  · rw [if_pos hc, if_pos (hx.2 hc)]
  · rw [if_neg hc, if_neg (fun h' => hc (hx.1 h'))]

/-- The packet of the examples: payload 1, 2, 0x55, checksum 0xA5. -/
theorem aPacket : IsPacket [1, 2, 0x55] [0x55, 3, 1, 2, 0x55, 0xA5] :=
  ⟨[3], 0xA5, .inl ⟨3, by decide, by decide, rfl⟩, rfl, by decide⟩

theorem aHeader : LenHeader 3 [3] := .inl ⟨3, by decide, by decide, rfl⟩

/-- Two bytes exchanged: undetected. -/
example : readPacket ⟨[9] ++ 0x55 :: ([3] ++ [2, 1, 0x55] ++ [0xA5]) ++ [7], []⟩ = .ret (⟨[7], []⟩, .ok [2, 1, 0x55]) :=
  C100_exact [9] [3] [1, 2, 0x55] [2, 1, 0x55] [7] [] 0xA5 0xA5 (by decide) aPacket aHeader rfl
/-- Another sum: detected. -/
example : readPacket ⟨[9] ++ 0x55 :: ([3] ++ [2, 2, 0x55] ++ [0xA5]) ++ [7], []⟩ =
    .ret (⟨[3, 2, 2, 0x55, 0xA5, 7], []⟩, .error Err.checksum) :=
  C100_exact [9] [3] [1, 2, 0x55] [2, 2, 0x55] [7] [] 0xA5 0xA5 (by decide) aPacket aHeader rfl
example : ∃ hdr ck, (writePacket [] [1, 2, 3]).1 = 0x55 :: (hdr ++ [1, 2, 3] ++ [ck]) ∧
    readPacket ⟨[9] ++ 0x55 :: (hdr ++ [3, 1, 2] ++ [ck]) ++ [], []⟩ = .ret (⟨[], []⟩, .ok [3, 1, 2]) :=
  C100_reordered [9] [1, 2, 3] [3, 1, 2] [] [] (by decide) (by decide) (by decide) (by decide) (by decide)
/-- Bit 0 of the bytes 1 and 2 (set and not set): undetected. -/
example : readPacket ⟨[] ++ 0x55 :: ([3] ++ ([] ++ flipBit 1 0 :: [] ++ flipBit 2 0 :: [0x55]) ++ [0xA5]) ++ [], []⟩ =
    .ret (⟨[], []⟩, .ok [0, 3, 0x55]) :=
  C100_two_bits [] [3] [] [] [0x55] [] [] 1 2 0xA5 0 0 (by decide) aPacket aHeader
/-- Bits 0 and 1: detected. -/
example : readPacket ⟨[] ++ 0x55 :: ([3] ++ ([] ++ flipBit 1 0 :: [] ++ flipBit 2 1 :: [0x55]) ++ [0xA5]) ++ [], []⟩ =
    .ret (⟨[3, 0, 0, 0x55, 0xA5], []⟩, .error Err.checksum) :=
  C100_two_bits [] [3] [] [] [0x55] [] [] 1 2 0xA5 0 1 (by decide) aPacket aHeader
/-- The last payload byte lost before the next packet: its start byte completes the sum, and the packet itself is lost too. -/
example : readPacket ⟨[] ++ 0x55 :: ([3] ++ ([1, 2] ++ []) ++ [0xA5]) ++ 0x55 :: [1, 9, 0xF6], []⟩ =
    .ret (⟨[1, 9, 0xF6], []⟩, .ok [1, 2, 0xA5]) :=
  C100_lost [] [3] [1, 2] [] [1, 9, 0xF6] [] 0x55 0x55 0xA5 (by decide) aPacket aHeader
example : ∃ f p, readPacket ⟨[] ++ 0x55 :: ([3] ++ ([1, 2] ++ []) ++ [0xA5]) ++ [0x55, 3, 1, 2, 0x55, 0xA5] ++ [], []⟩ = .ret (f, .ok p) :=
  (C100_lost_before_packet [] [3] [1, 2] [] [0x55, 3, 1, 2, 0x55, 0xA5] [1, 2, 0x55] [] [] 0x55 0xA5 (by decide) aPacket aHeader aPacket).2 rfl
/-- The checksum byte inserted in front: undetected. -/
example : readPacket ⟨[] ++ 0x55 :: ([3] ++ ([] ++ 0xA5 :: [1, 2, 0x55]) ++ [0xA5]) ++ [], []⟩ =
    .ret (⟨[0xA5], []⟩, .ok [0xA5, 1, 2]) :=
  C100_inserted [] [3] [] [1, 2, 0x55] [] [] 0xA5 0xA5 (by decide) aPacket aHeader [0xA5, 1, 2] 0x55 rfl

end Props
