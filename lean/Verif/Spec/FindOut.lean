import Verif.Spec.Emulator
import Verif.Spec.Afresh

/-! Specification: what an accessory can find out about the iPod and what it can bring about. -/

namespace Spec
open Go Ipod

/-- Packets, each in a frame of its own. -/
def framed (packets : List Bytes) : List (Except Err Slice) := packets.map fun p => .ok ⟨frameBytes p, []⟩

/-- Three packets without transaction: start the identification, leave the extended interface, request to identify. -/
def freshStart : List Bytes := [[0x00, 0x38], [0x00, 0x06], [0x00, 0x00]]

end Spec
