import Verif.Model.Server

/-!
# Several accessories served by one process

`processFrames` (cmd/ipod/main.go:332-384) keeps the transaction mode of an accessory in a variable of its own, but the buffer
for certificates (lingo-general/handler.go:91 `accCertBuf`) and the transaction counter (cmd.go:187 `trxCounter`) are variables
of the packages: all loops that run in one process share them. Here any number of such loops run at the same time. A step is
the treatment of one read, of one command, or the sending of what was answered to one frame; commands are handled one at a
time (handling two at once would be a data race on the buffer). The device is the caller's: each accessory has its own state
of it.
-/

namespace Ipod.Together
open Go

/-- The variables of the packages: lingo-general/handler.go:91 and cmd.go:187. -/
structure Shared where
  certBuf : Bytes
  counter : UInt32
deriving DecidableEq, Repr

/-- One `processFrames` loop: main.go:333 (`serde`), its device, the calls of `time.Now()`, the reads to come, the commands
of the current frame still to be handled (`inCmdBuf`, main.go:346; `none` between frames), the answers so far (`outCmdBuf`,
main.go:362), and the frames written. -/
structure Side (σ : Type) where
  mode : Bool
  dev : σ
  ticks : Nat
  reads : List (Except Err Slice)
  todo : Option (List Command)
  out : List Command
  written : List Bytes

/-- The state the handlers see. See cmd/ipod/main.go:362-366. -/
def Side.ctx {σ : Type} (s : Side σ) (g : Shared) : Ctx σ := ⟨s.dev, g.certBuf, g.counter, s.out, s.ticks⟩

/-- One step of one loop, with the command handled in it and the answers to it, if any. See cmd/ipod/main.go:335-382. -/
def Side.step {σ : Type} (D : Device σ) (clock : Clock) (g : Shared) (s : Side σ) :
    Out (Shared × Side σ × Option (Command × List Command)) :=
  match s.todo with
  | none =>
    match s.reads with
    | [] => .ret (g, s, none)
    | .error e :: rest =>
      if e = .eof then .ret (g, { s with reads := [] }, none) else .ret (g, { s with reads := rest }, none)
    | .ok frame :: rest =>
      readCommands s.mode frame >>= fun x =>
      .ret (g, { s with mode := x.1, reads := rest, todo := some x.2, out := [] }, none)
  | some (cmd :: cmds) =>
    handlePacket D clock cmd (s.ctx g) >>= fun c =>
    .ret (⟨c.certBuf, c.counter⟩, { s with dev := c.dev, ticks := c.ticks, todo := some cmds, out := c.out },
      some (cmd, c.out.drop s.out.length))
  | some [] =>
    let y := sendAll s.mode s.out
    .ret (g, { s with mode := y.1, todo := none, out := [], written := s.written ++ y.2 }, none)

/-- The loops, numbered, with the variables they share. `log`: the commands handled, by whom, with the answers, in order (an
observation; nothing depends on it). See cmd/ipod/main.go:332-386, cmd.go:187, lingo-general/handler.go:91. -/
structure System (σ : Type) where
  shared : Shared
  sides : Nat → Side σ
  log : List (Nat × Command × List Command)

/-- The loop `i` makes a step. A panic ends the process. See cmd/ipod/main.go:335-382. -/
def System.step {σ : Type} (D : Device σ) (clock : Nat → Clock) (t : System σ) (i : Nat) : Out (System σ) :=
  Side.step D (clock i) t.shared (t.sides i) >>= fun x =>
  .ret ⟨x.1, fun j => if j = i then x.2.1 else t.sides j,
    t.log ++ (match x.2.2 with
      | some y => [(i, y)]
      | none => [])⟩

/-- The loops make steps as scheduled. See cmd/ipod/main.go:332-384. -/
def System.run {σ : Type} (D : Device σ) (clock : Nat → Clock) : List Nat → System σ → Out (System σ)
  | [], t => .ret t
  | i :: is, t => t.step D clock i >>= fun t => run D clock is t

/-- A loop at its beginning. See cmd/ipod/main.go:332-333. -/
def Side.start {σ : Type} (dev : σ) (reads : List (Except Err Slice)) : Side σ := ⟨false, dev, 0, reads, none, [], []⟩

/-- The process at its beginning, with the accessories that will be served. See cmd/ipod/main.go:332-333. -/
def System.start {σ : Type} (dev : Nat → σ) (reads : Nat → List (Except Err Slice)) : System σ :=
  ⟨⟨[], 0⟩, fun i => Side.start (dev i) (reads i), []⟩

end Ipod.Together
