import Verif.Spec.Trace

/-! Specification of runs that need not end, and of trace files that cannot be read to their end. -/

namespace Spec
open Go Ipod.Hid Ipod.Trace

/-- The file has a line of 64 KiB or more. -/
def LongLine (content : Bytes) : Prop :=
  ∃ pre mid post, content = pre ++ mid ++ post ∧ (0x0A : UInt8) ∉ mid ∧ 65536 ≤ mid.length

/-- The error a reader of the file ends with: for ever the same. -/
def LastError (content : Bytes) (ending : Option Err) (e : Err) : Prop :=
  (LongLine content ∧ e = .tooLong) ∨ (¬ LongLine content ∧ e = ending.getD .eof)

/-! ### Two goroutines on one tracer -/

/-- In a sequence of operations, given by their directions, number `i` of direction `d` (from 0) comes before number `j` of
direction `d'`. -/
def Before (l : List Ipod.Trace.Dir) (d : Ipod.Trace.Dir) (i : Nat) (d' : Ipod.Trace.Dir) (j : Nat) : Prop :=
  ∃ pre suf, l = pre ++ d :: suf ∧ pre.count d = i ∧ pre.count d' ≤ j

/-- The order `rec` in which operations are written down differs from the order `done` in which they were done only by
lateness of one operation at a time: what was done after the next operation of the same direction is never written down before
it. -/
def Late (done rec : List Ipod.Trace.Dir) : Prop :=
  ∀ d d', d ≠ d' → ∀ i j, Before done d (i + 1) d' j → ¬ Before rec d' j d i

/-- A sequence of operations made of these reads and writes, each in their order. -/
def Merges (ins outs : List Bytes) (l : List (Ipod.Trace.Dir × Bytes)) : Prop :=
  (l.filter (·.1 = 0)).map (·.2) = ins ∧ (l.filter (·.1 = 1)).map (·.2) = outs ∧ ∀ x ∈ l, x.1 = 0 ∨ x.1 = 1

/-- The data of the reads that succeeded. -/
def readData (reads : List ReadRes) : List Bytes := (reads.filter (·.err = none)).map (·.data)

/-- The data of the writes that succeeded. -/
def writeData (writes : List (Bytes × WriteRes)) : List Bytes :=
  (writes.filter (·.2.err = none)).map (fun x => x.1.take x.2.n)

/-- The lines for operations, in this order; none for those that moved nothing. -/
def linesFor (l : List (Ipod.Trace.Dir × Bytes)) : Bytes :=
  traceText ((l.filter (·.2 ≠ [])).map fun x => ⟨x.1, 0, x.2⟩)

end Spec
