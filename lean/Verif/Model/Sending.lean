import Verif.Model.Online

/-!
# The `send` command as a whole (cmd/ipod/main.go:222-285)

Two goroutines: the loop of `send` (269-279) and the server on what the device sends back (267), whose answers go to
`ioutil.Discard` (262). A panic in either of them ends the process. Once the loop is over, its goroutine waits for ever (281); when
the server has returned as well, the runtime ends the process ("all goroutines are asleep"), with status 2.
-/

namespace Ipod
open Go Hid

/-- `send` under way: what goes on at the device and in the trace (Model/Online.lean), the server (`none` when `processFrames`
has returned), whether it has panicked. See cmd/ipod/main.go:247-281. -/
structure Sending (σ : Type) where
  duplex : Duplex
  server : Option (Live σ)
  crashed : Bool

/-- The `Read` of the server's goroutine returns (to hid.go:91). -/
def Sending.took {σ : Type} (s : Sending σ) (x : Out (Option (Live σ))) : Sending σ :=
  match x with
  | .panic => { s with crashed := true }
  | .ret server => { s with server := server }

/-- One step of the server's (`false`) or the sending goroutine. See cmd/ipod/main.go:267-279. -/
def Sending.step {σ : Type} (D : Device σ) (clock : Clock) (grow : Growth) (defs : List ReportDef) (s : Sending σ) (t : Bool) :
    Sending σ :=
  if s.crashed then s
  else
    match t with
    | true => { s with duplex := s.duplex.step true }
    | false =>
      match s.server with
      | none => s
      | some l =>
        match s.duplex.readDone with
        | some d => ({ s with duplex := s.duplex.step false }).took (l.onRead D clock grow defs ⟨d, none⟩)
        | none =>
          match s.duplex.reads with
          | [] => s
          | r :: _ =>
            match r.err with
            | none => { s with duplex := s.duplex.step false }
            | some _ => ({ s with duplex := s.duplex.step false }).took (l.onRead D clock grow defs r)

/-- The goroutines taking turns in any order. See cmd/ipod/main.go:267-281. -/
def Sending.run {σ : Type} (D : Device σ) (clock : Clock) (grow : Growth) (defs : List ReportDef) (s : Sending σ)
    (schedule : List Bool) : Sending σ :=
  schedule.foldl (Sending.step D clock grow defs) s

/-- Before the first operation on the device. See cmd/ipod/main.go:247-267. -/
def Sending.start {σ : Type} (s : Srv σ) (reads : List ReadRes) (writes : List (Bytes × Trace.WriteRes)) : Sending σ :=
  ⟨Duplex.start reads writes, some (Live.start s), false⟩

/-- main.go:270-273: does the loop of `send` end, its reads of the trace returning this? -/
def sendEnds (reads : List ReadRes) : Bool :=
  reads.any fun r => match rawReadReport r with
    | .error _ => true
    | .ok _ => false

/-- Has the process ended (with status 2, see above)? `ends`: there are no more writes to come. See cmd/ipod/main.go:281. -/
def Sending.dead {σ : Type} (s : Sending σ) (ends : Bool) : Bool :=
  s.crashed || (ends && s.duplex.writes.isEmpty && s.duplex.writeDone.isNone && s.server.isNone)

end Ipod
