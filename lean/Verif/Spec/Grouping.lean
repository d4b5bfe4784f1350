import Verif.Spec.Server

/-! Specification: the packets that come, however they are grouped in frames. -/

namespace Spec
open Go Ipod

/-- The reads bring the packets, in order, grouped in frames in any way, with filler between them; reads that fail, but for
the end, may come between the frames. -/
inductive Brings : List (Except Err Slice) → List Bytes → Prop
  | done : Brings [] []
  | failed {e reads ps} : e ≠ Err.eof → Brings reads ps → Brings (.error e :: reads) ps
  | frame {d spare qs reads ps} : Scan spare d qs false → Brings reads ps → Brings (.ok ⟨d, spare⟩ :: reads) (qs ++ ps)

/-- No packet but possibly the first changes the transaction mode. -/
def SteadyMode (m : Bool) (ps : List Bytes) : Prop :=
  ∀ q r, ps = q ++ r → q ≠ [] → modeAfter m (q.map .receive) = modeAfter m (ps.map .receive)

end Spec
