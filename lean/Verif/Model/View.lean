import Verif.Model.Server
import Verif.Model.Trace

/-! Model of the trace viewer (cmd/ipod/main.go:419-469 `dumpTrace`). Of what is logged, the model keeps direction, frame (or
error) and decoded commands; packet lengths and errors of single packets are in `Model/LogView.lean`. -/

namespace Ipod.Trace
open Go Ipod.Hid

/-- main.go:421-431: all messages are read; `.error` stands for `log.Fatal`. -/
def loadTrace (r : Reader) : Except Err (List Msg) :=
  match r.err with
  | some e => if e = .eof then .ok [] else .error e
  | none =>
    match _h : readMsgLoop r Msg.zero with
    | (r', m, none) =>
      match loadTrace r' with
      | .ok ms => .ok (m :: ms)
      | .error e => .error e
    | (_, _, some e) => if e = .eof then .ok [] else .error e
termination_by r.content.length
decreasing_by exact readMsgLoop_lt _h

/-- main.go:420, 430: the messages, each in its own variable (422; number `n` is message `n`), are queued. -/
def enqueueAll (mem : Ptr → Msg) : List Ptr → Queue → Out Queue
  | [], q => .ret q
  | p :: ps, q => q.enqueue mem p >>= fun q => enqueueAll mem ps q

/-- `n` calls of `Read` on a `queueDirReader` (trace.go:272-278), with the report reader's buffer. -/
def queueReads (mem : Ptr → Msg) (d : Dir) : Nat → Queue → Out (Queue × List ReadRes)
  | 0, q => .ret (q, [])
  | n + 1, q =>
    queueDirRead mem d maxRawSize q >>= fun x =>
    queueReads mem d n x.1 >>= fun y => .ret (y.1, x.2 :: y.2)

/-- main.go:440-444: `ReadFrame` of a new decoder (with an empty buffer) on the queue. `readFrame` is given the results of
all coming reads, of which it makes some: those are then taken from the queue. (There are at most as many messages of one
direction as there are in the queue.) -/
def readFrameQueue (grow : Growth) (defs : List ReportDef) (mem : Ptr → Msg) (d : Dir) (q : Queue) :
    Out (Queue × Except Err Slice) :=
  queueReads mem d q.all.length q >>= fun x =>
  readFrame grow defs (x.2.map rawReadReport) ⟨[], []⟩ >>= fun y =>
  queueReads mem d (x.2.length - y.1.length) q >>= fun z => .ret (z.1, y.2.2)

/-- What is shown of a frame: direction, frame or error, and the commands. See cmd/ipod/main.go:440-466. -/
structure Shown where
  dir : Dir
  frame : Except Err Bytes
  cmds : List Command

/-- main.go:435-467; `none` if the loop is still running after `fuel` rounds. -/
def dumpLoop (grow : Growth) (defs : List ReportDef) (mem : Ptr → Msg) :
    Nat → Queue → Bool → Out (Option (List Shown))
  | 0, _, _ => .ret none
  | fuel + 1, q, mode =>
    match q.head with
    | none => .ret (some [])
    | some head =>
      let dir := (mem head).dir
      readFrameQueue grow defs mem dir q >>= fun x =>
      match x.2 with
      | .error e =>
        if e = .eof then .ret (some [])
        else dumpLoop grow defs mem fuel x.1 mode >>= fun more => .ret (more.map (⟨dir, .error e, []⟩ :: ·))
      | .ok frame =>
        readCommands mode frame >>= fun y =>
        dumpLoop grow defs mem fuel x.1 y.1 >>= fun more => .ret (more.map (⟨dir, .ok frame.data, y.2⟩ :: ·))

/-- main.go:419-469 `dumpTrace`; the outer error stands for `log.Fatal`. -/
def dumpTrace (grow : Growth) (defs : List ReportDef) (fuel : Nat) (r : Reader) : Except Err (Out (Option (List Shown))) :=
  match loadTrace r with
  | .error e => .error e
  | .ok ms =>
    let mem : Ptr → Msg := fun p => (ms[p]?).getD Msg.zero
    .ok (enqueueAll mem (List.range ms.length) Queue.empty >>= fun q => dumpLoop grow defs mem fuel q false)

end Ipod.Trace
