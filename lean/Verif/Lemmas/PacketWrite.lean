import Verif.Lemmas.Packet

/-! Lemmas about `writePacket` and about repeated `readPacket` calls. -/

namespace Ipod
open Go Spec

/-- The header bytes `writePacket` emits for a payload of `n` bytes. -/
def writtenHeader (n : Nat) : Bytes :=
  if n > largePacketMinLen then [0x00, (UInt16.ofNat n >>> 8).toUInt8, (UInt16.ofNat n).toUInt8]
  else [UInt8.ofNat n]

theorem writePacket_nil (f : Bytes) : writePacket f [] = (f, some Err.emptyPacket) := rfl

theorem writePacket_ne (f p : Bytes) (hp : p ≠ []) :
    writePacket f p =
      (f ++ 0x55 :: (writtenHeader p.length ++ p ++ [checksum (writtenHeader p.length ++ p)]), none) := by
  have h0 : ¬ p.length = 0 := by simpa using hp
  simp only [writePacket, h0, if_false, writtenHeader]
  split <;> simp [List.drop_append, List.drop_of_length_le]

theorem u16_hi (n : Nat) (h : n < 65536) : (UInt16.ofNat n >>> 8).toUInt8 = UInt8.ofNat (n / 256) := by
  apply UInt8.toNat_inj.1
  simp [UInt16.toNat_shiftRight, Nat.shiftRight_eq_div_pow]
  omega

theorem u16_lo (n : Nat) : (UInt16.ofNat n).toUInt8 = UInt8.ofNat (n % 256) := by
  apply UInt8.toNat_inj.1
  simp

theorem writtenHeader_eq (n : Nat) (h1 : n ≤ 65535) (h2 : n ≠ 256) :
    writtenHeader n = canonicalHeader n := by
  unfold writtenHeader canonicalHeader largePacketMinLen
  by_cases h : n ≤ 255
  · rw [if_neg (by omega), if_pos h]
  · rw [if_pos (by omega), if_neg h, u16_hi n (by omega), u16_lo]

theorem canonicalHeader_LenHeader (n : Nat) (h0 : 1 ≤ n) (h1 : n ≤ 65535) :
    LenHeader n (canonicalHeader n) := by
  unfold canonicalHeader
  split
  · refine .inl ⟨UInt8.ofNat n, ?_, ?_, rfl⟩
    · intro h
      have := congrArg UInt8.toNat h
      simp at this
      omega
    · simp; omega
  · refine .inr ⟨_, _, ?_, rfl⟩
    simp; omega

theorem byteSum_self_checksum (a : Bytes) : byteSum (a ++ [checksum a]) % 256 = 0 := byteSum_checksum a

/-- What `writePacket` appends is a well-formed packet, for the sizes the header can express. -/
theorem writePacket_isPacket (p : Bytes) (h0 : 1 ≤ p.length) (h1 : p.length ≤ 65535)
    (h2 : p.length ≠ 256) :
    ∃ w, IsPacket p w ∧ ∀ f, writePacket f p = (f ++ w, none) := by
  refine ⟨_, ⟨canonicalHeader p.length, checksum (canonicalHeader p.length ++ p),
    canonicalHeader_LenHeader _ h0 h1, rfl, byteSum_checksum _⟩, ?_⟩
  intro f
  rw [writePacket_ne f p (by rintro rfl; simp at h0), writtenHeader_eq _ h1 h2]

/-- A client that calls `ReadPacket` `n` times and collects what it returns. -/
def callReader : Nat → Slice → Out (List PktResult)
  | 0, _ => .ret []
  | n + 1, f => readPacket f >>= fun r => callReader n r.1 >>= fun rs => .ret (r.2 :: rs)

theorem callReader_filler (k : Nat) (j s : Bytes) (hj : Filler j) :
    callReader k ⟨j, s⟩ = .ret (List.replicate k (.error .eof)) := by
  induction k with
  | zero => rfl
  | succ k ih => simp [callReader, readPacket_filler j s hj, ih, List.replicate_succ]

theorem filler_count (j : Bytes) : Filler j ↔ j.count 0x55 = 0 := by
  simp [Filler, List.count_eq_zero]

/-- One call: EOF without any change, or the first start byte (at least) is consumed. -/
theorem readPacket_progress (d s : Bytes) (f : Slice) (r : PktResult)
    (h : readPacket ⟨d, s⟩ = .ret (f, r)) :
    (r = .error .eof ∧ f = ⟨d, s⟩ ∧ Filler d) ∨
    (r ≠ .error .eof ∧ ¬ Filler d ∧ f.spare = s ∧ ∃ pre, d = pre ++ f.data ∧ (0x55 : UInt8) ∈ pre) := by
  rcases filler_or_start d with hf | ⟨j, r', rfl, hj⟩
  · rw [readPacket_filler d s hf] at h
    simp only [Out.ret.injEq, Prod.mk.injEq] at h
    exact .inl ⟨h.2.symm, h.1.symm, hf⟩
  · refine .inr ?_
    have hnf : ¬ Filler (j ++ 0x55 :: r') := by simp [Filler]
    rw [readPacket_start j r' s hj] at h
    by_cases h3 : r'.length < 3
    · rw [afterStart_short r' s h3] at h
      simp only [Out.ret.injEq, Prod.mk.injEq] at h
      obtain ⟨rfl, rfl⟩ := h
      exact ⟨by simp, hnf, rfl, j ++ [0x55], by simp, by simp⟩
    · obtain ⟨off, len, hh, hoff, hl, _, _⟩ := parseHeader_ok r' (by omega)
      rw [afterStart_header r' s off len hh] at h
      split at h
      · simp at h
      · split at h
        · simp only [Out.ret.injEq, Prod.mk.injEq] at h
          obtain ⟨rfl, rfl⟩ := h
          exact ⟨by simp, hnf, rfl, j ++ [0x55], by simp, by simp⟩
        · split at h
          · simp at h
          · simp only [Out.ret.injEq, Prod.mk.injEq] at h
            obtain ⟨rfl, rfl⟩ := h
            exact ⟨by simp, hnf, rfl, j ++ 0x55 :: r'.take (off + len + 1), by simp, by simp⟩

end Ipod
