import Verif.Model.Text
import Verif.Model.View

/-!
# Model of the log (cmd/ipod/formatter.go, cmd/ipod/log.go, the logging of cmd/ipod/main.go and cmd.go)

The texts of errors are a parameter. Left out: the dumps of the debug level (spew). The lines printed by `DevGeneral` itself
are a parameter here; they are in `Model/LogDevice.lean`.
-/

namespace Ipod.Log
open Go

/-- logrus v1.4.2 `Level`, an uint32: panic, fatal, error, warning, info, debug, trace from 0 on. See cmd/ipod/formatter.go:73,78. -/
abbrev Level := UInt32

/-- logrus `ErrorLevel`. See cmd/ipod/formatter.go:83, cmd/ipod/main.go:296. -/
def errorLevel : Level := 2

/-- logrus `WarnLevel`. See cmd/ipod/formatter.go:81, cmd/ipod/main.go:383. -/
def warnLevel : Level := 3

/-- logrus `InfoLevel`. See cmd/ipod/main.go:299. -/
def infoLevel : Level := 4

/-- logrus v1.4.2 `Level.String`. See cmd/ipod/formatter.go:73. -/
def levelString (l : Level) : Bytes :=
  if l = 0 then ascii "panic"
  else if l = 1 then ascii "fatal"
  else if l = 2 then ascii "error"
  else if l = 3 then ascii "warning"
  else if l = 4 then ascii "info"
  else if l = 5 then ascii "debug"
  else if l = 6 then ascii "trace"
  else ascii "unknown"

/-- `strings.ToUpper` (on ASCII). See cmd/ipod/formatter.go:73. -/
def toUpper (b : Bytes) : Bytes := b.map fun c => if 0x61 ≤ c ∧ c ≤ 0x7A then c - 0x20 else c

/-- fmt/format.go `fmtInteger` for the verb `%0<wid>d`: the sign takes one place of the width. -/
def fmtDec0 (wid : Nat) (i : Int) : Bytes :=
  let digits := formatInt10 i.natAbs
  if i < 0 then 0x2D :: (List.replicate (wid - 1 - digits.length) 0x30 ++ digits)
  else List.replicate (wid - digits.length) 0x30 ++ digits

/-- fmt/format.go `padString` for the verb `%-<wid>s`. Simplification: a byte is counted as a character (the messages of
the program are ASCII). -/
def fmtPadRight (wid : Nat) (s : Bytes) : Bytes := s ++ List.replicate (wid - s.length) 0x20

/-- logrus `Entry`, as far as the formatter reads it. `ts`: nanoseconds since `baseTimestamp`; `data`: the map of the
fields, with the text `%v` gives for their values. See cmd/ipod/formatter.go:46-101. -/
structure Entry where
  level : Level
  ts : Int
  message : Bytes
  data : List (Bytes × Bytes)

/-- formatter.go:77-87: the colour of a level. -/
def levelColor (l : Level) : Nat :=
  if l = 5 then 37
  else if l = 3 then 33
  else if l = 2 ∨ l = 1 ∨ l = 0 then 31
  else 36

/-- The escape sequence `\x1b[%dm`. See cmd/ipod/formatter.go:88,91. -/
def escape (n : Nat) : Bytes := [0x1B, 0x5B] ++ formatInt10 n ++ [0x6D]

/-- formatter.go:74-75: `%04d.%06d` of seconds and microseconds; Go's division and rest round towards zero. -/
def tsText (ts : Int) : Bytes :=
  fmtDec0 4 (ts.tdiv 1000000000) ++ [0x2E] ++ fmtDec0 6 ((ts.tmod 1000000000).tdiv 1000)

/-- formatter.go:89-92, 95-98: the fields, in the order of `keys`. (A key not in the map would give `<nil>`.) -/
def printFields (colored : Bool) (color : Nat) (data : List (Bytes × Bytes)) (keys : List Bytes) : Bytes :=
  keys.flatMap fun k =>
    let v := match mapGet data k with
      | some v => v
      | none => ascii "<nil>"
    if colored then [0x20] ++ escape color ++ k ++ escape 0 ++ [0x3D] ++ v else [0x20] ++ k ++ [0x3D] ++ v

/-- formatter.go:71-101 `(*TextFormatter).print`. -/
def print (colored : Bool) (e : Entry) (keys : List Bytes) : Bytes :=
  let levelText := (toUpper (levelString e.level)).take 4
  let rest := [0x5B] ++ tsText e.ts ++ [0x5D, 0x20] ++ fmtPadRight 44 e.message ++ [0x20]
  let head := if colored then escape (levelColor e.level) ++ levelText ++ escape 0 ++ rest else levelText ++ rest
  head ++ printFields colored (levelColor e.level) e.data keys

/-- formatter.go:46-65 `(*TextFormatter).Format`. `order` is the order in which the map is iterated, `keys` what
`sort.Strings` makes of it: an arrangement in which none is less than one before it. -/
def Formats (colored : Bool) (e : Entry) (text : Bytes) : Prop :=
  ∃ order keys : List Bytes, order.Perm (e.data.map (·.1)) ∧ keys.Perm order ∧ keys.Pairwise (fun a b => ¬ b < a) ∧
    text = print colored e keys ++ [0x0A]

/-! ### What is logged -/

/-- The value of a field: a number, a text, or an error. See cmd/ipod/log.go:11-24. -/
inductive Val where
  | num (n : Nat)
  | text (b : Bytes)
  | err (e : Err)
deriving DecidableEq, Repr

/-- A call of the logger: level, message and fields. See cmd/ipod/main.go:293-330. -/
structure Line where
  level : Level
  message : Bytes
  fields : List (String × Val)
deriving DecidableEq, Repr

/-- `%v` of the value of a field; the texts of errors are a parameter. See cmd/ipod/formatter.go:91,97. -/
def Val.show (errText : Err → Bytes) : Val → Bytes
  | .num n => formatInt10 n
  | .text b => b
  | .err e => errText e

/-- logrus `Entry.log`: the entry handed to the formatter. See cmd/ipod/formatter.go:46. -/
def Line.entry (errText : Err → Bytes) (ts : Int) (l : Line) : Entry :=
  ⟨l.level, ts, l.message, l.fields.map fun f => (ascii f.1, f.2.show errText)⟩

/-- main.go:293-317 `logFrame`, `logPacket` (with log.go:10-14 `FrameLogEntry`): `n` is the length of the slice. -/
def logLen (n : Nat) (err : Option Err) (msg : Bytes) : Line :=
  match err with
  | some e => ⟨errorLevel, msg, [("len", .num n), ("error", .err e)]⟩
  | none => ⟨infoLevel, msg, [("len", .num n)]⟩

/-- `fmt.Sprintf("%T", cmd.Payload)`. See cmd/ipod/log.go:23. -/
def payloadTypeText : Payload → Bytes
  | .nil => ascii "<nil>"
  | .ptr t _ => ascii "*" ++ ascii t.typeName
  | .unknown _ => ascii "ipod.UnknownPayload"

/-- `%v` of a `*Transaction`: fmt prints `<nil>` for a nil pointer with a `String` method. See cmd/ipod/log.go:22. -/
def trxPtrText : Option UInt16 → Bytes
  | none => ascii "<nil>"
  | some t => trxString t

/-- log.go:16-25 `CommandLogEntry`; the command is never nil here. -/
def commandFields (cmd : Command) : List (String × Val) :=
  [("id", .text cmd.id.string), ("trx", .text (trxPtrText cmd.trx)), ("type", .text (payloadTypeText cmd.payload))]

/-- main.go:319-330 `logCmd`. -/
def logCmd (cmd : Command) (err : Option Err) (msg : Bytes) : Line :=
  match err with
  | some e => ⟨errorLevel, msg, commandFields cmd ++ [("error", .err e)]⟩
  | none => ⟨infoLevel, msg, commandFields cmd⟩

/-- cmd.go:81-87: the warning of `handleCmdID`, if the mode changes from `prev` to `now`. -/
def modeLines (prev now : Bool) : List Line :=
  if prev ≠ now then
    if now then [⟨warnLevel, ascii "Enabling transaction support", []⟩]
    else [⟨warnLevel, ascii "Disabling transaction support", []⟩]
  else []

/-- main.go:346-360 and 453-466 with the log. `pre` is `<< `, or what `dirPrefix` gives. On an error `ReadPacket` returns a nil
slice (packet.go:66-74). The warning of `handleCmdID` comes while `UnmarshalCmd` runs, hence before the line of the command. -/
def readLogged (pre : Bytes) (mode : Bool) (frame : Slice) : Out (Bool × List Command × List Line) :=
  match _h : readPacket frame with
  | .panic => .panic
  | .ret (rest, .error e) =>
    if e = .eof then .ret (mode, [], [])
    else readLogged pre mode rest >>= fun y => .ret (y.1, y.2.1, logLen 0 (some e) (pre ++ ascii "PACKET") :: y.2.2)
  | .ret (rest, .ok pkt) =>
    unmarshalCmd mode pkt >>= fun x =>
    readLogged pre x.1 rest >>= fun y =>
    .ret (y.1, x.2.1 :: y.2.1,
      logLen pkt.length none (pre ++ ascii "PACKET") :: (modeLines mode x.1 ++ logCmd x.2.1 x.2.2 (pre ++ ascii "CMD") :: y.2.2))
termination_by frame.data.length
decreasing_by
  all_goals
    have hp := readPacket_progress frame.data frame.spare _ _ _h
    simp only [ne_eq, reduceCtorEq, false_and, not_false_eq_true, true_and, false_or, Except.error.injEq] at hp
    have hp : ∃ pre, frame.data = pre ++ rest.data ∧ (0x55 : UInt8) ∈ pre := by
      first
        | exact hp.2.2
        | (rcases hp with ⟨h1, _⟩ | ⟨_, _, _, h2⟩
           · contradiction
           · exact h2)
    obtain ⟨pre, h4, h5⟩ := hp
    have := List.length_pos_of_mem h5
    rw [h4, List.length_append]
    omega

/-- main.go:388-408: the lines printed while a command is handled in the context `c`; `dlog`: those printed by the device. -/
def handlerLines {σ : Type} (dlog : Command → Ctx σ → List Line) (cmd : Command) (c : Ctx σ) : List Line :=
  if cmd.id.lingoID = lingoGeneralID then dlog cmd c
  else if cmd.id.lingoID = lingoSimpleRemoteID then [⟨warnLevel, ascii "Lingo SimpleRemote is not supported yet", []⟩]
  else []

/-- main.go:363-366 with the log. -/
def handleLogged {σ : Type} (D : Device σ) (clock : Clock) (dlog : Command → Ctx σ → List Line) :
    List Command → Ctx σ → Out (Ctx σ × List Line)
  | [], c => .ret (c, [])
  | cmd :: cmds, c =>
    handlePacket D clock cmd c >>= fun c' =>
    handleLogged D clock dlog cmds c' >>= fun x => .ret (x.1, handlerLines dlog cmd c ++ x.2)

/-- main.go:368-380 with the log; `werr n` is the result of the `n`th `WriteFrame`, of which there were `k` before. -/
def sendLogged (werr : Nat → Option Err) (k : Nat) (mode : Bool) : List Command → Bool × List Bytes × List Line
  | [] => (mode, [], [])
  | cmd :: cmds =>
    let x := marshalCmd mode cmd
    let outPacket := match x.2 with
      | .ok p => p
      | .error _ => []
    let err := match x.2 with
      | .ok _ => none
      | .error e => some e
    let outFrame := (writePacket newPacketWriter outPacket).1
    let y := sendLogged werr (k + 1) x.1 cmds
    (y.1, outFrame :: y.2.1,
      logCmd cmd none (ascii ">> CMD") :: (modeLines mode x.1 ++ logLen outPacket.length err (ascii ">> PACKET") ::
        logLen outFrame.length (werr k) (ascii ">> FRAME") :: y.2.2))

/-- main.go:345-380 with the log. -/
def frameLogged {σ : Type} (D : Device σ) (clock : Clock) (dlog : Command → Ctx σ → List Line) (werr : Nat → Option Err) (k : Nat)
    (s : Srv σ) (frame : Slice) : Out (Srv σ × List Bytes × List Line) :=
  readLogged (ascii "<< ") s.mode frame >>= fun x =>
  handleLogged D clock dlog x.2.1 { s.ctx with out := [] } >>= fun c =>
  let y := sendLogged werr k x.1 c.1.out
  .ret (⟨y.1, { c.1 with out := [] }⟩, y.2.1, x.2.2 ++ c.2 ++ y.2.2)

/-- main.go:332-384 `processFrames` with the log. On an error `ReadFrame` returns a nil slice (hid.go:98-131). -/
def framesLogged {σ : Type} (D : Device σ) (clock : Clock) (dlog : Command → Ctx σ → List Line) (werr : Nat → Option Err) :
    Nat → List (Except Err Slice) → Srv σ → Out (Srv σ × List Bytes × List Line)
  | _, [], s => .ret (s, [], [⟨warnLevel, ascii "EOF", []⟩])
  | _, .error .eof :: _, s => .ret (s, [], [⟨warnLevel, ascii "EOF", []⟩])
  | k, .error e :: reads, s =>
    framesLogged D clock dlog werr k reads s >>= fun y => .ret (y.1, y.2.1, logLen 0 (some e) (ascii "<< FRAME") :: y.2.2)
  | k, .ok frame :: reads, s =>
    frameLogged D clock dlog werr k s frame >>= fun x =>
    framesLogged D clock dlog werr (k + x.2.1.length) reads x.1 >>= fun y =>
    .ret (y.1, x.2.1 ++ y.2.1, logLen frame.data.length none (ascii "<< FRAME") :: (x.2.2 ++ y.2.2))

end Ipod.Log
