import Verif.Spec.Record
import Verif.Spec.Serde

/-! Specification of any session on a traced device: reads may fail, writes may fail, the server may stop or panic. -/

namespace Spec
open Go Ipod Ipod.Hid Ipod.Trace

/-- A read that returned these bytes and no error. -/
def good (b : Bytes) : ReadRes := ⟨b, none⟩

/-- The reads that make up a frame or end in an error: one that is not a known report, or one that failed. -/
inductive ReadCall (defs : List ReportDef) : List ReadRes → Except Err Bytes → Prop
  | call {bs x} : OneCall defs bs x → ReadCall defs (bs.map good) x
  | failed {bs d e} : Unfinished defs bs → ReadCall defs (bs.map good ++ [⟨d, some e⟩]) (.error e)

/-- A frame that kills a server in mode `m`, with `spare` in the memory behind it: a packet goes beyond the frame, or one is
malformed, in the mode the packets before it lead to. -/
def Deadly (m : Bool) (spare f : Bytes) : Prop :=
  ∃ ps b, Scan spare f ps b ∧
    (b = true ∨ ∃ ps1 p ps2, ps = ps1 ++ p :: ps2 ∧ Malformed (modeAfter m (ps1.map .receive)) p)

/-- What happens from one frame to the next: the reads that make up the frame (or end in an error), the frame, the commands in
it, whether transactions are on from then on, and what is sent. -/
structure Visit where
  reads : List ReadRes
  got : Except Err Bytes
  cmds : List Command
  mode : Bool
  sent : List Answer

/-- How a session ends: waiting for the rest of a frame, at the end of the input, or by a panic; with the reads since the last
frame. -/
inductive Ending (σ : Type)
  | waits (s : Srv σ) (last : List ReadRes)
  | stops (s : Srv σ) (last : List ReadRes)
  | panics (last : List ReadRes)

/-- The reads since the last frame. -/
def Ending.last {σ : Type} : Ending σ → List ReadRes
  | .waits _ l => l
  | .stops _ l => l
  | .panics l => l

/-- A session from the state `s` on. -/
inductive Course {σ : Type} (D : Device σ) (clock : Clock) (defs : List ReportDef) :
    Srv σ → List ReadRes → List Visit → Ending σ → Prop
  | waits {s bs} : Unfinished defs bs → Course D clock defs s (bs.map good) [] (.waits s (bs.map good))
  | stops {s used rest} : ReadCall defs used (.error .eof) → Course D clock defs s (used ++ rest) [] (.stops s used)
  | panics {s used f spare rest} : ReadCall defs used (.ok f) → Deadly s.mode spare f →
      Course D clock defs s (used ++ rest) [] (.panics used)
  | error {s used rest e es fin} : ReadCall defs used (.error e) → e ≠ .eof → Course D clock defs s rest es fin →
      Course D clock defs s (used ++ rest) (⟨used, .error e, [], s.mode, []⟩ :: es) fin
  | frame {s used rest f spare ps m cmds c news sent es fin} : ReadCall defs used (.ok f) → Scan spare f ps false →
      Decoded s.mode ps m cmds → HandledEach D clock cmds { s.ctx with out := [] } c news →
      sent.map (·.cmd) = news.flatten → (∀ a ∈ sent, AnswerIn defs m a) →
      Course D clock defs ⟨m, { c with out := [] }⟩ rest es fin →
      Course D clock defs s (used ++ rest) (⟨used, .ok f, cmds, m, sent⟩ :: es) fin

/-- How many of the reports of an answer are handed to the device, the first being the i-th of the session: up to the first it
does not take, with that one. -/
def tried (fails : Fails) : Nat → List Report → Nat
  | _, [] => 0
  | i, _ :: rs => if fails i = none then tried fails (i + 1) rs + 1 else 1

/-- Those it takes. -/
def taken (fails : Fails) : Nat → List Report → List Report
  | _, [] => []
  | i, r :: rs => if fails i = none then r :: taken fails (i + 1) rs else []

/-- The answers to a frame: how many reports are handed to the device. -/
def triedAll (fails : Fails) : Nat → List Answer → Nat
  | _, [] => 0
  | i, a :: as => tried fails i a.reports + triedAll fails (i + tried fails i a.reports) as

/-- The answers to a frame: the reports the device takes. -/
def takenAll (fails : Fails) : Nat → List Answer → List Report
  | _, [] => []
  | i, a :: as => taken fails i a.reports ++ takenAll fails (i + tried fails i a.reports) as

/-- The bytes that move in a session, with their direction: of every exchange the reads that gave something, then of its answers
the reports the device takes; at the end the reads since the last frame. -/
def courseData (fails : Fails) : Nat → List Visit → List ReadRes → List (Trace.Dir × Bytes)
  | _, [], last => (recordedData last).map ((0, ·))
  | i, e :: es, last =>
    (recordedData e.reads).map ((0, ·)) ++
      ((takenAll fails i e.sent).map (fun r => (1, r.id :: r.linkControl :: r.data)) ++
        courseData fails (i + triedAll fails i e.sent) es last)

/-- What a session comes to: the server's state and the frames written, or a panic. -/
def Ending.outcome {σ : Type} (es : List Visit) : Ending σ → Out (Srv σ × List Bytes)
  | .waits s _ => .ret (s, es.flatMap fun e => e.sent.map (·.frame))
  | .stops s _ => .ret (s, es.flatMap fun e => e.sent.map (·.frame))
  | .panics _ => .panic

/-! ### answers taken as a whole or not at all -/

/-- The answers of which the device takes all reports. -/
def took (fails : Fails) : Nat → List Answer → List Answer
  | _, [] => []
  | i, a :: as =>
    if taken fails i a.reports = a.reports then a :: took fails (i + tried fails i a.reports) as
    else took fails (i + tried fails i a.reports) as

/-- Of the other answers the device takes nothing. -/
def WholeAnswers (fails : Fails) : Nat → List Answer → Prop
  | _, [] => True
  | i, a :: as => (taken fails i a.reports = a.reports ∨ taken fails i a.reports = []) ∧
      WholeAnswers fails (i + tried fails i a.reports) as

/-- The same for the rounds of a session: what is left of them. -/
def tookRounds (fails : Fails) : Nat → List Round → List Round
  | _, [] => []
  | i, e :: es => { e with sent := took fails i e.sent } :: tookRounds fails (i + triedAll fails i e.sent) es

/-- In no round the device takes an answer in part. -/
def WholeRounds (fails : Fails) : Nat → List Round → Prop
  | _, [] => True
  | i, e :: es => WholeAnswers fails i e.sent ∧ WholeRounds fails (i + triedAll fails i e.sent) es

end Spec
