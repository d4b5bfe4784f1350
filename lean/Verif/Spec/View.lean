import Verif.Spec.Hid
import Verif.Spec.Server
import Verif.Model.View

/-! Specification of the trace viewer. -/

namespace Spec
open Go Ipod Ipod.Hid Ipod.Trace

/-- The report in a message: id, link control and at least one byte, in the first 1024 bytes. -/
def reportOf (b : Bytes) : Option Report :=
  match b.take 1024 with
  | id :: lc :: d :: ds => some ⟨id, lc, d :: ds⟩
  | _ => none

/-- Reports that do not complete a frame. -/
def Pending (defs : List ReportDef) (rs : List Report) : Prop := ∀ r ∈ rs, (∃ b, Accepted defs r b) ∧ ¬ Ends r

/-- Messages that do not complete a frame. -/
def Unfinished (defs : List ReportDef) (bs : List Bytes) : Prop :=
  ∃ rs, bs.map reportOf = rs.map some ∧ Pending defs rs

/-- The messages `bs` make up a frame, or its end by an error. -/
inductive OneCall (defs : List ReportDef) : List Bytes → Except Err Bytes → Prop
  | frame {bs rs f} : bs.map reportOf = rs.map some → Delivered defs rs f → OneCall defs bs (.ok f)
  | notReport {bs b} : Unfinished defs bs → reportOf b = none → OneCall defs (bs ++ [b]) (.error .noProgress)
  | unknown {bs b r} : Unfinished defs bs → reportOf b = some r → (∀ d ∈ defs, d.id ≠ r.id.toNat) →
      OneCall defs (bs ++ [b]) (.error Err.noReport)

/-- The messages of one direction, cut into frames; `tail` does not complete one. -/
inductive Frames (defs : List ReportDef) : List Bytes → List (Except Err Bytes) → List Bytes → Prop
  | tail {bs} : Unfinished defs bs → Frames defs bs [] bs
  | cons {used rest r rs tail} : OneCall defs used r → Frames defs rest rs tail →
      Frames defs (used ++ rest) (r :: rs) tail

/-- The data of the messages of one direction. -/
def ofDir (d : Trace.Dir) (ms : List Msg) : List Bytes := (ms.filter (·.dir = d)).map (·.data)

/-- Taking the first messages `bs` of a direction out of a list. -/
inductive Taken (d : Trace.Dir) : List Bytes → List Msg → List Msg → Prop
  | nil {ms} : Taken d [] ms ms
  | take {m bs ms ms'} : m.dir = d → Taken d bs ms ms' → Taken d (m.data :: bs) (m :: ms) ms'
  | skip {m b bs ms ms'} : m.dir ≠ d → Taken d (b :: bs) ms ms' → Taken d (b :: bs) (m :: ms) (m :: ms')

/-- The viewer: the direction of the first message left decides which frame is shown next; it stops where that direction
has no complete frame left. -/
inductive Viewing (defs : List ReportDef) : List Msg → List (Trace.Dir × Except Err Bytes) → Prop
  | done : Viewing defs [] []
  | cut {m ms} : Unfinished defs (ofDir m.dir (m :: ms)) → Viewing defs (m :: ms) []
  | frame {m ms used ms' r evs} : OneCall defs used r → Taken m.dir used (m :: ms) ms' → Viewing defs ms' evs →
      Viewing defs (m :: ms) ((m.dir, r) :: evs)

/-- The commands shown are those of the packets found in the frames, decoded one after another. -/
inductive ShownCmds : Bool → List Shown → Prop
  | nil {m} : ShownCmds m []
  | error {m d e evs} : ShownCmds m evs → ShownCmds m (⟨d, .error e, []⟩ :: evs)
  | frame {m m' d f spare ps cmds evs} : Scan spare f ps false → Decoded m ps m' cmds → ShownCmds m' evs →
      ShownCmds m (⟨d, .ok f, cmds⟩ :: evs)

/-- The frames shown of one direction. -/
def shownOf (d : Trace.Dir) (evs : List (Trace.Dir × Except Err Bytes)) : List (Except Err Bytes) :=
  (evs.filter (·.1 = d)).map (·.2)

/-- A frame the packet loop survives, whatever the memory behind it: no packet goes beyond the frame, none is malformed. -/
def SafeFrame (f : Bytes) : Prop :=
  ∀ spare, ∃ ps, Scan spare f ps false ∧ ∀ p ∈ ps, ∀ m, ¬ Malformed m p

end Spec
