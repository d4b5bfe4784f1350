import Verif.Spec.Lossy
import Verif.Spec.Server

/-! Specification: packets of which bytes were changed on the way. -/

namespace Spec
open Go Ipod Ipod.Hid

/-- `w'` is what became of the packet `w`: as many bytes, no start byte behind the first, and the first is not the start byte or the sum of
the others is not what it was. (One changed byte is always such a change, see `hit_damaged`.) -/
structure Damaged (w w' : Bytes) : Prop where
  length : w'.length = w.length
  filler : Filler w'.tail
  noticeable : w'.head? ≠ some 0x55 ∨ byteSum w'.tail % 256 ≠ byteSum w.tail % 256

/-- The packet at the beginning of the frame says it has `m` bytes of payload; `body` is what is behind the length. -/
def Says (frame hdr body : Bytes) (m : Nat) : Prop := frame = 0x55 :: (hdr ++ body) ∧ LenHeader m hdr

/-- The packet does not say it is shorter than `n` bytes. -/
def NotShorter (frame : Bytes) (n : Nat) : Prop := ∀ hdr body m, Says frame hdr body m → n ≤ 1 + hdr.length + m + 1

/-- What a report is but for its data: its identifier, its link control byte and how much data it has. -/
def form (r : Report) : UInt8 × UInt8 × Nat := (r.id, r.linkControl, r.data.length)

/-- All reports arrived, some perhaps with other data, but as much. -/
def Transfer.Altered (t : Transfer) : Prop := t.got.map form = t.sent.map form

/-- The frame is a packet, and what arrives is what was sent, or the packet is damaged, the zeros behind it are not, and it does not say it is
shorter than it is. -/
structure Transfer.Struck (t : Transfer) : Prop where
  altered : t.Altered
  packet : ∃ p, t.Packet p
  harm : t.Complete ∨ ∃ w' pad, dataOf t.got = w' ++ pad ∧ Damaged t.frame w' ∧ Zeros pad ∧ NotShorter (dataOf t.got) t.frame.length

/-- A packet and the frame that arrives: the packet itself, with anything but a start byte behind it, or damaged, with zeros behind it, and then
not with a smaller length. -/
structure Arrival where
  packet : Bytes
  came : Bytes
  behind : Bytes

def Arrival.frame (a : Arrival) : Bytes := a.came ++ a.behind

def Arrival.unharmed (a : Arrival) : Bool := a.came == a.packet

structure Arrival.Ok (a : Arrival) : Prop where
  packet : ∃ p, IsPacket p a.packet
  behind : Filler a.behind
  damaged : a.came ≠ a.packet → Damaged a.packet a.came ∧ Zeros a.behind ∧ NotShorter a.frame a.packet.length

end Spec
