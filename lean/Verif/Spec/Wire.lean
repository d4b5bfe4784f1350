import Verif.Go.Basic

/-!
# Independent specification of the packet format

Written from the protocol description (start byte, length, payload, checksum), without reference to the
functions of the model.
-/

namespace Spec
open Go

/-- Sum of the bytes of a string, as a natural number. -/
def byteSum (b : Bytes) : Nat := (b.map UInt8.toNat).sum

/-- `LenHeader n h`: the byte string `h` is a length header announcing `n` payload bytes: either the
one-byte form (1..255) or the three-byte form (a zero byte, then 16-bit big-endian). -/
def LenHeader (n : Nat) (h : Bytes) : Prop :=
  (∃ b : UInt8, b ≠ 0 ∧ n = b.toNat ∧ h = [b]) ∨
  (∃ hi lo : UInt8, n = hi.toNat * 256 + lo.toNat ∧ h = [0, hi, lo])

/-- The header form the protocol prescribes for a given size: one byte up to 255, three bytes above. -/
def canonicalHeader (n : Nat) : Bytes :=
  if n ≤ 255 then [UInt8.ofNat n] else [0, UInt8.ofNat (n / 256), UInt8.ofNat (n % 256)]

/-- `IsPacket p w`: `w` is a packet on the wire with payload `p`: start byte 0x55, a header announcing the
size of `p`, `p` itself, and a byte making everything after the start byte sum to zero mod 256. -/
def IsPacket (p w : Bytes) : Prop :=
  ∃ hdr ck, LenHeader p.length hdr ∧ w = 0x55 :: (hdr ++ p ++ [ck]) ∧
    byteSum (hdr ++ p ++ [ck]) % 256 = 0

/-- Bytes a reader skips while hunting for a packet. -/
def Filler (j : Bytes) : Prop := (0x55 : UInt8) ∉ j

instance (j : Bytes) : Decidable (Filler j) := inferInstanceAs (Decidable (_ ∉ j))

/-- `Stream ps w`: `w` is a concatenation of packets carrying `ps` in order, with filler anywhere. -/
inductive Stream : List Bytes → Bytes → Prop
  | done (j : Bytes) (h : Filler j) : Stream [] j
  | more (j w rest p : Bytes) (ps : List Bytes) (hj : Filler j) (hw : IsPacket p w)
      (hrest : Stream ps rest) : Stream (p :: ps) (j ++ w ++ rest)

end Spec
