import Verif.Spec.Loss
import Verif.Model.Listeners

/-! Specification: which reports the transport `i` has read. -/

namespace Spec
open Go Ipod Ipod.Hid

/-- What transport `i` has read. -/
def readBy (i : Nat) (log : List (Nat × α)) : List α := (log.filter (·.1 = i)).map (·.2)

/-- A frame whose reports go to the transports named beside them, as transport `i` sees it. -/
def partFor (i : Nat) (p : Bytes × List (Nat × Report)) : Transfer := ⟨p.1, p.2.map (·.2), readBy i p.2⟩

end Spec
