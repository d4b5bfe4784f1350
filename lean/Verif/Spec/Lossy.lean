import Verif.Spec.Order
import Verif.Spec.Fewest
import Verif.Spec.Wire

/-! Specification: packets in frames of which reports got lost. -/

namespace Spec
open Go Ipod Ipod.Hid

/-- The frame is one packet and has no start byte but its first byte. -/
def Transfer.Packet (t : Transfer) (p : Bytes) : Prop := IsPacket p t.frame ∧ Filler t.frame.tail

/-- A report that ends a frame arrived. -/
def Transfer.ended (t : Transfer) : Bool := t.got.any fun r => decide (Ends r)

/-- All reports arrived. -/
def Transfer.whole (t : Transfer) : Bool := decide t.Complete

end Spec
