import Verif.Spec.LogServer
import Verif.Spec.View
import Verif.Model.LogView

/-! Specification of the log of the trace viewer. -/

namespace Spec
open Go Ipod Ipod.Log Ipod.Trace

/-- The mark of a direction of a trace. -/
def mark (d : Trace.Dir) : String := if d = 0 then "<< " else ">> "

/-- The lines about the frames shown: the frame, then its packets and commands, all with the mark of the direction; the end. -/
inductive ViewLog : Bool → List Shown → List Line → Prop
  | nil {m} : ViewLog m [] [⟨3, ascii "EOF", []⟩]
  | error {m d e l evs ls} : ShownAs (mark d) (.frameIn (.error e)) l → ViewLog m evs ls →
      ViewLog m (⟨d, .error e, []⟩ :: evs) (l :: ls)
  | frame {m m' d f spare items cmds ev l evs ls} : ScanItems spare f items → InEvents m items m' cmds ev →
      ShownAll (mark d) (.frameIn (.ok f) :: ev) l → ViewLog m' evs ls → ViewLog m (⟨d, .ok f, cmds⟩ :: evs) (l ++ ls)

/-- The length of a frame, 0 if there was an error. -/
def frameLen : Except Err Bytes → Nat
  | .ok f => f.length
  | .error _ => 0

end Spec
