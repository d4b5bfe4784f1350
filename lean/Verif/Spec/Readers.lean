import Verif.Spec.Hid
import Verif.Spec.Confirmed
import Verif.Model.Readers

/-! Specification: goroutines that read frames from one transport. -/

namespace Spec
open Go Ipod Ipod.Hid

/-- The call of a goroutine begins. -/
def Act.Begins : Act → Prop
  | .call _ => True
  | .read _ _ _ => False

/-- The call of a goroutine ends. -/
def Act.Returns : Act → Prop
  | .call _ => False
  | .read _ _ r => r.isSome

/-- A call begins, or a report is read with which no call ends. -/
def Act.GoesOn : Act → Prop
  | .call _ => True
  | .read _ x r => (∃ q, x = .ok q) ∧ r = none

/-- The reports read. -/
def reportsRead : List Act → List Report
  | [] => []
  | .read _ (.ok r) _ :: as => r :: reportsRead as
  | _ :: as => reportsRead as

/-- The reports read since the last call began; all, if none began. -/
inductive SinceCall : List Act → List Report → Prop
  | all {as : List Act} : (∀ a ∈ as, ¬ Act.Begins a) → SinceCall as (reportsRead as)
  | call {as bs : List Act} {j : Nat} : (∀ a ∈ bs, ¬ Act.Begins a) → SinceCall (as ++ .call j :: bs) (reportsRead bs)

/-- From the first to the last report of a frame; the goroutine that reads the last gets the data of those read since the last call
began, the others get nothing. -/
structure FrameTaken (rs : List Report) (i : Nat) (f : Bytes) (during : List Act) : Prop where
  reads : reportsRead during = rs
  first : ∀ a ∈ during.head?, ¬ Act.Begins a
  last : ∃ init r, during = init ++ [.read i (.ok r) (some (.ok f))] ∧ ∀ a ∈ init, Act.GoesOn a
  data : ∃ since, SinceCall during since ∧ f = dataOf since

/-- Frames (as lists of reports) read one after the other; between two of them calls begin. -/
inductive FramesTaken : List (List Report) → List (Nat × Bytes) → List Act → Prop
  | nil : FramesTaken [] [] []
  | snoc {done : List (List Report)} {fs : List (Nat × Bytes)} {as idle during : List Act} {rs : List Report} {i : Nat} {f : Bytes} :
      FramesTaken done fs as → (∀ a ∈ idle, Act.Begins a) → FrameTaken rs i f during →
      FramesTaken (done ++ [rs]) (fs ++ [(i, f)]) (as ++ (idle ++ during))

/-- What happens after the last complete frame: nothing is read; or a part of the next frame; or, after all frames, calls end with
`io.EOF`. `unread` is left in the reader. -/
inductive AfterFrames : List (List Report) → List Act → List Report → Prop
  | idle {todo : List (List Report)} {idle : List Act} : (∀ a ∈ idle, Act.Begins a) → AfterFrames todo idle todo.flatten
  | part {rs more : List Report} {todo : List (List Report)} {idle during : List Act} : (∀ a ∈ idle, Act.Begins a) →
      (∀ a ∈ during, Act.GoesOn a) → (∀ a ∈ during.head?, ¬ Act.Begins a) → rs = reportsRead during ++ more → more ≠ [] →
      AfterFrames (rs :: todo) (idle ++ during) (more ++ todo.flatten)
  | over {after : List Act} : (∀ a ∈ after, Act.Begins a ∨ ∃ i, a = .read i (.error .eof) (some (.error .eof))) → AfterFrames [] after []

/-- What the calls returned, in the order in which they ended. -/
def returnedBy : List Act → List (Nat × Except Err Bytes)
  | [] => []
  | .read i _ (some r) :: as => (i, r) :: returnedBy as
  | _ :: as => returnedBy as

/-- A call begins only after the one before has ended, as with a lock held during each call. -/
def OneAtATime (as : List Act) : Prop := ∀ (a b : List Act) (x : Act) (i : Nat), as = a ++ x :: .call i :: b → Act.Returns x

/-- The calls returned the first of the frames that were sent, in order and followed by zeros, and `io.EOF` only after the last. -/
def InOrder (frames : List Bytes) (returned : List (Nat × Except Err Bytes)) : Prop :=
  ∃ done todo fs k, frames = done ++ todo ∧ EachPadded done fs ∧ returned.map (·.2) = fs.map .ok ++ List.replicate k (.error .eof) ∧
    (0 < k → todo = [])

end Spec
