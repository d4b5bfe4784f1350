import Verif.Spec.Replay
import Verif.Spec.View

/-! Specification of a recorded session. -/

namespace Spec
open Go Ipod Ipod.Hid Ipod.Trace

/-- The data of the reads the tracer writes down. -/
def recordedData (reads : List ReadRes) : List Bytes := (reads.filter (fun x => decide (Recorded x))).map (·.data)

/-- A command sent: its frame and the reports that carry it. -/
structure Answer where
  cmd : Command
  frame : Bytes
  reports : List Report

/-- What happens from one frame to the next: the reads that make up the frame (or end in an error), the frame, the commands in
it, whether transactions are on from then on, and what is sent. -/
structure Round where
  used : List Bytes
  got : Except Err Bytes
  cmds : List Command
  mode : Bool
  sent : List Answer

/-- The bytes of the operations on the device: the reads, then for every command sent its reports. -/
def Round.moved (e : Round) : List (Trace.Dir × Bytes) :=
  e.used.map ((0, ·)) ++ e.sent.flatMap fun a => a.reports.map fun r => (1, r.id :: r.linkControl :: r.data)

/-- The reports `rs` carry the frame: nothing at all if it is empty, else filled reports linked together, from which a
decoder delivers the frame and then zeros. -/
def Carries (defs : List ReportDef) (frame : Bytes) (rs : List Report) : Prop :=
  (frame = [] ∧ rs = []) ∨
  (frame ≠ [] ∧ LinkSeq (rs.map (·.linkControl)) ∧ (∀ r ∈ rs, ∃ d ∈ defs, FilledBy d r) ∧
    ∃ pad, Zeros pad ∧ Delivered defs rs (frame ++ pad))

/-- The reports of a command sent carry its frame; the frame is empty iff the command cannot be encoded; else it is the
packet, unless that has 256 or more than 65535 bytes. -/
structure AnswerIn (defs : List ReportDef) (m : Bool) (a : Answer) : Prop where
  nothing : a.frame = [] ↔ ∃ e, (marshalCmd m a.cmd).2 = .error e
  packet : ∀ p, (marshalCmd m a.cmd).2 = .ok p → p.length ≤ 65535 → p.length ≠ 256 → IsPacket p a.frame
  reports : Carries defs a.frame a.reports

/-- A session from the state `s` to the state `s'`, one round after another. -/
inductive Talk {σ : Type} (D : Device σ) (clock : Clock) (defs : List ReportDef) : Srv σ → List Round → Srv σ → Prop
  | nil {s} : Talk D clock defs s [] s
  | error {s s' used e es} : OneCall defs used (.error e) → Talk D clock defs s es s' →
      Talk D clock defs s (⟨used, .error e, [], s.mode, []⟩ :: es) s'
  | frame {s s' used f ps m cmds c news sent es} : OneCall defs used (.ok f) → (∀ spare, Scan spare f ps false) →
      Decoded s.mode ps m cmds → HandledEach D clock cmds { s.ctx with out := [] } c news →
      sent.map (·.cmd) = news.flatten → (∀ a ∈ sent, AnswerIn defs m a) → Talk D clock defs ⟨m, { c with out := [] }⟩ es s' →
      Talk D clock defs s (⟨used, .ok f, cmds, m, sent⟩ :: es) s'

/-- What the viewer is to show of the commands sent: for each that could be encoded its packet, decoded again; zeros may follow
the packet in the last report. -/
inductive ShownAnswers (m : Bool) : List Answer → List Shown → Prop
  | nil : ShownAnswers m [] []
  | lost {a as evs e} : (marshalCmd m a.cmd).2 = .error e → ShownAnswers m as evs → ShownAnswers m (a :: as) evs
  | packet {a as evs p cmd err pad} : (marshalCmd m a.cmd).2 = .ok p → unmarshalCmd m p = .ret (m, cmd, err) →
      idPair cmd.id = idPair a.cmd.id → Zeros pad → ShownAnswers m as evs →
      ShownAnswers m (a :: as) (⟨1, .ok (a.frame ++ pad), [cmd]⟩ :: evs)

/-- What the viewer is to show of a session: of every round the frame received with its commands, then the commands sent. -/
inductive ShownTalk : List Round → List Shown → Prop
  | nil : ShownTalk [] []
  | cons {e es evs evs'} : ShownAnswers e.mode e.sent evs → ShownTalk es evs' →
      ShownTalk (e :: es) (⟨0, e.got, e.cmds⟩ :: (evs ++ evs'))

end Spec
