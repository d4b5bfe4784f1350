import Verif.Model.Memory

/-! Specification of a caller of the packet writer for whom every slice is a value of its own. -/

namespace Spec.Memory
open Go Ipod Ipod.Memory

/-- The writer's bytes and the byte strings the caller holds. -/
structure Values where
  frame : Bytes
  slices : List Bytes
deriving DecidableEq, Repr

/-- One step on values: nothing a caller holds is ever changed. -/
def Values.step (v : Values) : Step → Values
  | .make b => { v with slices := v.slices ++ [b] }
  | .cut i lo hi => { v with slices := v.slices ++ [((v.slices.getD i []).take hi).drop lo] }
  | .write i => { v with frame := v.frame ++ (Ipod.writePacket [] (v.slices.getD i [])).1 }
  | .bytes => { v with slices := v.slices ++ [v.frame] }

def Values.run (v : Values) (ss : List Step) : Values := ss.foldl Values.step v

/-- The step is answered with an error: writing nothing. -/
def Values.refuses (v : Values) : Step → Bool
  | .write i => decide (v.slices.getD i [] = [])
  | _ => false

/-- Which of the steps are answered with an error. -/
def Values.refused (v : Values) : List Step → List Bool
  | [] => []
  | s :: ss => v.refuses s :: (v.step s).refused ss

/-- `rest` with its beginning replaced by `xs` (as far as it reaches). -/
def over (xs rest : Bytes) : Bytes := xs.take rest.length ++ rest.drop xs.length

/-- What one `Read` delivered, as a value. -/
def readOf (r : Fill) : Hid.ReadRes := ⟨r.buf.take r.n, r.err⟩

/-- A `Read` into a buffer of 1024 bytes. -/
def FillOK (r : Fill) : Prop := r.buf.length = 1024 ∧ r.n ≤ 1024

end Spec.Memory
