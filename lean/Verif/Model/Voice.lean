import Verif.Model.LogText
import Verif.Model.Record

/-!
# `ipod serve` with all that can be watched: the operations on the device and the lines of the log, in one list

`session` (Model/Record.lean) has the operations on the device, `serveSaid` (Model/LogText.lean) the log of a run that comes to its
end, with the results of `WriteFrame` as a parameter. Here both are put together, cut at the calls of the device's `Read`: what
`WriteFrame` returns comes from what the device answers, and of a run that crashes there is all it did and said until then. All
lines go to one logger (main.go:25, cmd.go:81-87: `logrus.StandardLogger()`).
-/

namespace Ipod.Log
open Go Ipod.Hid Ipod.Trace

/-- What can be watched: an operation on the device, a line of the log. See cmd/ipod/main.go:293-330, hid/report_transport.go:34,65. -/
inductive Item where
  | op (o : TOp)
  | say (l : Line)

/-- cmd.go:125-129: the warning `UnmarshalCmd` gives before it looks at the payload. -/
def warned (mode : Bool) (pkt : Bytes) : List Line :=
  match unmarshalLingoCmdID pkt with
  | (.ok id, _) => modeLines mode (handleCmdID mode id)
  | (.error _, _) => []

/-- main.go:346-360, as `readSaid`: the lines, also those before a panic; `none`: it panics. -/
def readVoiced (lib : BinTexts) (pre : Bytes) (mode : Bool) (frame : Slice) : List Line × Option (Bool × List Command) :=
  match _h : readPacket frame with
  | .panic => ([], none)
  | .ret (rest, .error e) =>
    if e = .eof then ([], some (mode, []))
    else
      let y := readVoiced lib pre mode rest
      (sayLen 0 (some (plainText e)) (pre ++ ascii "PACKET") :: y.1, y.2)
  | .ret (rest, .ok pkt) =>
    match unmarshalCmd mode pkt, unmarshalText lib mode pkt with
    | .ret x, .ret t =>
      let y := readVoiced lib pre x.1 rest
      (sayLen pkt.length none (pre ++ ascii "PACKET") :: (modeLines mode x.1 ++ sayCmd x.2.1 t (pre ++ ascii "CMD") :: y.1),
        y.2.map fun z => (z.1, x.2.1 :: z.2))
    | _, _ => (sayLen pkt.length none (pre ++ ascii "PACKET") :: warned mode pkt, none)
termination_by frame.data.length
decreasing_by
  all_goals
    have hp := readPacket_progress frame.data frame.spare _ _ _h
    simp only [ne_eq, reduceCtorEq, false_and, not_false_eq_true, true_and, false_or, Except.error.injEq] at hp
    have hp : ∃ pre, frame.data = pre ++ rest.data ∧ (0x55 : UInt8) ∈ pre := by
      first
        | exact hp.2.2
        | (rcases hp with ⟨h1, _⟩ | ⟨_, _, _, h2⟩
           · contradiction
           · exact h2)
    obtain ⟨pre, h4, h5⟩ := hp
    have := List.length_pos_of_mem h5
    rw [h4, List.length_append]
    omega

/-- What the device answers, without the texts. See hid/report_transport.go:65. -/
def errs (fails : Nat → Option Fault) : Fails := fun i => (fails i).map (·.err)

/-- main.go:368-380: the answers are encoded and written one after another. `log` are the reports handed to the device so far,
`fails i` what it answers to the i-th of them. With a table for which `WriteFrame` panics or does not come to an end this counts as a
crash (`none`), as in `writeFrames` (Model/Record.lean). -/
def sendVoiced (lib : BinTexts) (defs : List ReportDef) (fails : Nat → Option Fault) :
    List Report → Bool → List Command → List Item × Option (List Report × Bool)
  | log, mode, [] => ([], some (log, mode))
  | log, mode, cmd :: cmds =>
    let x := marshalCmd mode cmd
    let outPacket := match x.2 with
      | .ok p => p
      | .error _ => []
    let outFrame := (writePacket newPacketWriter outPacket).1
    let said := sayCmd cmd none (ascii ">> CMD") ::
      (modeLines mode x.1 ++ [sayLen outPacket.length (marshalText lib cmd) (ascii ">> PACKET")])
    match writeFrameT (outFrame.length + 1) defs fails log outFrame with
    | some (.ret (log', err)) =>
      let y := sendVoiced lib defs fails log' x.1 cmds
      (said.map .say ++ ((writeOps (errs fails) log.length (log'.drop log.length)).map .op ++
        .say (sayLen outFrame.length (err.map (·.text)) (ascii ">> FRAME")) :: y.1), y.2)
    | _ => (said.map .say, none)

/-- main.go:345-380: what is done and said about a frame, after its own line. -/
def frameVoiced {σ : Type} (D : Device σ) (clock : Clock) (dlog : Command → Ctx σ → List Line) (lib : BinTexts) (defs : List ReportDef)
    (fails : Nat → Option Fault) (log : List Report) (s : Srv σ) (frame : Slice) : List Item × Option (List Report × Srv σ) :=
  let x := readVoiced lib (ascii "<< ") s.mode frame
  match x.2 with
  | none => (x.1.map .say, none)
  | some (mode, cmds) =>
    match handleLogged D clock dlog cmds { s.ctx with out := [] } with
    | .panic => (x.1.map .say, none)
    | .ret c =>
      let y := sendVoiced lib defs fails log mode c.1.out
      (x.1.map .say ++ (c.2.map .say ++ y.1), y.2.map fun z => (z.1, ⟨z.2, { c.1 with out := [] }⟩))

/-- The server waiting in a `Read`, as `Live` (Model/Online.lean), with the reports handed to the device so far.
See cmd/ipod/main.go:332-384. -/
structure Voice (σ : Type) where
  buf : Slice
  srv : Srv σ
  log : List Report

/-- How it goes on: a panic, the end of the loop (main.go:337-339), or the next `Read`. -/
inductive Next (σ : Type) where
  | crash
  | ends
  | goes (v : Voice σ)

/-- main.go:341-380: a frame is complete. -/
def Voice.frame {σ : Type} (D : Device σ) (clock : Clock) (dlog : Command → Ctx σ → List Line) (lib : BinTexts) (defs : List ReportDef)
    (fails : Nat → Option Fault) (v : Voice σ) (buf : Slice) : List Item × Next σ :=
  let x := frameVoiced D clock dlog lib defs fails v.log v.srv buf
  (.say (sayLen buf.data.length none (ascii "<< FRAME")) :: x.1,
    match x.2 with
    | none => .crash
    | some z => .goes ⟨buf.reset, z.2, z.1⟩)

/-- What is done and said when a `Read` returns `r`, until the next one is called: `Live.onRead` with the log. An error of `ReadFrame`
other than `io.EOF` is logged (main.go:341). -/
def Voice.onRead {σ : Type} (D : Device σ) (clock : Clock) (dlog : Command → Ctx σ → List Line) (lib : BinTexts) (grow : Growth)
    (defs : List ReportDef) (fails : Nat → Option Fault) (v : Voice σ) (r : ReadT) : List Item × Next σ :=
  match rawReadReport r.res with
  | .error e =>
    if e = .eof then ([.say ⟨warnLevel, ascii "EOF", []⟩], .ends)
    else ([.say (sayLen 0 (reportText r) (ascii "<< FRAME"))], .goes { v with buf := v.buf.reset })
  | .ok report =>
    match find defs report.id.toNat with
    | none => ([.say (sayLen 0 (findText defs report.id) (ascii "<< FRAME"))], .goes { v with buf := v.buf.reset })
    | some reportDef =>
      if reportDef.maxPayload < 0 then ([], .crash)
      else
        let reportData := report.data.take (min report.data.length reportDef.maxPayload.toNat)
        if report.linkControl = linkControlDone then v.frame D clock dlog lib defs fails (v.buf.reset.write grow reportData)
        else if report.linkControl = linkControlMoreToFollow then ([], .goes { v with buf := v.buf.reset.write grow reportData })
        else if report.linkControl = linkControlContinue ||| linkControlMoreToFollow then
          ([], .goes { v with buf := v.buf.write grow reportData })
        else if report.linkControl = linkControlContinue then v.frame D clock dlog lib defs fails (v.buf.write grow reportData)
        else ([], .goes v)

/-- main.go:159-161, 332-384: everything done and said while the `Read` calls return `reads`, and how it goes on. -/
def Voice.run {σ : Type} (D : Device σ) (clock : Clock) (dlog : Command → Ctx σ → List Line) (lib : BinTexts) (grow : Growth)
    (defs : List ReportDef) (fails : Nat → Option Fault) : List ReadT → Voice σ → List Item × Next σ
  | [], v => ([], .goes v)
  | r :: reads, v =>
    let x := v.onRead D clock dlog lib grow defs fails r
    match x.2 with
    | .goes v' =>
      let y := Voice.run D clock dlog lib grow defs fails reads v'
      (.op (.read r.res) :: (x.1 ++ y.1), y.2)
    | other => (.op (.read r.res) :: x.1, other)

/-- Before the first `Read`. See cmd/ipod/main.go:332-333. -/
def Voice.start {σ : Type} (s : Srv σ) : Voice σ := ⟨⟨[], []⟩, s, []⟩

end Ipod.Log
