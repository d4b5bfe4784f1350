import Verif.Model.ErrText
import Verif.Model.LogView

/-!
# What the errors of trace, transport and packets say, and the log with these texts

`Err` (the model's error values) says which error it is; here its text goes with it. The texts of the errors of the operating
system are a parameter.
-/

namespace Ipod.Log
open Go Ipod.Hid Ipod.Trace

/-- An error: which one it is, and what `Error()` returns. See cmd/ipod/main.go:296,310,322. -/
structure Fault where
  err : Err
  text : Bytes
deriving DecidableEq, Repr

/-- An error whose text does not depend on where it arises (package io, bufio, packet.go:58). -/
def plainFault (e : Err) : Fault := ⟨e, plainText e⟩

/-! ### trace.go -/

/-- fmt/format.go `fmtC` for a byte: the character with that number, in UTF-8. -/
def fmtC (c : UInt8) : Bytes := if c < 0x80 then [c] else [(0xC0 : UInt8) ||| (c >>> 6), (0x80 : UInt8) ||| (c &&& 0x3F)]

/-- fmt/print.go `fmtBytes` for the verb `%v`. -/
def fmtBytesV (b : Bytes) : Bytes := [0x5B] ++ joinStrings [0x20] (b.map fun c => formatInt10 c.toNat) ++ [0x5D]

/-- trace.go:18-27: text of the error of `(Dir).MarshalText`, if there is one. (`Dir` has no `String` method: `%v` is decimal.) -/
def dirMarshalText (d : Trace.Dir) : Option Bytes :=
  if d = dirIn then none else if d = dirOut then none else some (ascii "bad dir: " ++ formatInt10 d.toNat)

/-- trace.go:29-43: text of the error of `(*Dir).UnmarshalText`. -/
def dirUnmarshalText (text : Bytes) : Option Bytes :=
  match text with
  | [c] =>
    if c = 0x3C then none
    else if c = 0x3E then none
    else some (ascii "trace dir unmarshal: unknown symbol '" ++ fmtC c ++ ascii "'")
  | _ => some (ascii "trace dir unmarshal: bad value " ++ fmtBytesV text)

/-- trace.go:51-62: text of the error of `(Msg).MarshalText`. -/
def msgMarshalText (m : Msg) : Option Bytes :=
  match dirMarshalText m.dir with
  | some t => some t
  | none => if m.data.length = 0 then some (ascii "trace marshal: no data") else none

/-- trace.go:64-81: text of the error of `(*Msg).UnmarshalText`. -/
def msgUnmarshalText (text : Bytes) : Option Bytes :=
  if text.length < 4 then some (ascii "trace unmarshal: short msg")
  else
    match dirUnmarshalText (text.take 1) with
    | some t => some t
    | none =>
      match sscanfHex (dropByte 0x20 (text.drop 2)) with
      | .error _ => some (ascii "trace unmarshal: bad data")
      | .ok _ => none

/-- The text of an error the reader keeps (trace.go:95-97, 111-115): of the scanner, `io.EOF`, or `os` for one of the file. -/
def keptText (os : Err → Bytes) (e : Err) : Bytes := if e = .tooLong ∨ e = .eof then plainText e else os e

/-- trace.go:98-115: text of the error of `ReadMsg` (without an error kept before), empty if there is none. -/
def readMsgLoopText (os : Err → Bytes) (content : Bytes) (ending : Option Err) : Bytes :=
  match _h : scanLine content with
  | .token text rest =>
    if text.length = 0 then readMsgLoopText os rest ending else (msgUnmarshalText text).getD []
  | .tooLong => plainText .tooLong
  | .done =>
    match ending with
    | none => plainText .eof
    | some e => os e
termination_by content.length
decreasing_by exact scanLine_lt _h

/-- trace.go:95-116: the error of `ReadMsg`, with its text. -/
def readMsgFault (os : Err → Bytes) (r : Reader) (m : Msg) : Option Fault :=
  (readMsg r m).2.2.map fun e =>
    ⟨e, match r.err with
      | some e => keptText os e
      | none => readMsgLoopText os r.content r.ending⟩

/-- main.go:421-431: all messages are read; `.error` is the error given to `log.Fatal`. -/
def loadFault (os : Err → Bytes) (r : Reader) : Except Fault (List Msg) :=
  match readMsgFault os r Msg.zero with
  | some f => if f.err = .eof then .ok [] else .error f
  | none =>
    match _h : readMsg r Msg.zero with
    | (r', m, none) =>
      match loadFault os r' with
      | .ok ms => .ok (m :: ms)
      | .error f => .error f
    | (_, _, some _) => .ok []
termination_by r.content.length
decreasing_by
  rw [readMsg.eq_def] at _h
  split at _h
  · cases _h
  · exact readMsgLoop_lt _h

/-- The result of a `Read`: the bytes, and the error with its text. See hid/report_transport.go:34. -/
structure ReadT where
  data : Bytes
  err : Option Fault
deriving DecidableEq, Repr

/-- The same without the text. See hid/report_transport.go:34. -/
def ReadT.res (r : ReadT) : ReadRes := ⟨r.data, r.err.map (·.err)⟩

/-- trace.go:179-190: text of the error of `(*traceDirReader).Read`, empty if there is none. -/
def dirReaderText (os : Err → Bytes) (dir : Trace.Dir) (r : Reader) : Bytes :=
  match readMsgFault os r Msg.zero with
  | some f => f.text
  | none =>
    match _h : readMsg r Msg.zero with
    | (r', m, none) => if m.dir ≠ dir then dirReaderText os dir r' else []
    | (_, _, some _) => []
termination_by r.content.length
decreasing_by
  rw [readMsg.eq_def] at _h
  split at _h
  · cases _h
  · exact readMsgLoop_lt _h

/-- trace.go:179-190: what `n` calls of the reader of one direction return (as `dirReads`), with the texts of the errors. -/
def dirReadsT (os : Err → Bytes) (dir : Trace.Dir) (size : Nat) : Nat → Reader → List ReadT
  | 0, _ => []
  | n + 1, r =>
    let x := dirReaderRead dir size r
    ⟨x.2.data, x.2.err.map fun e => ⟨e, dirReaderText os dir r⟩⟩ :: dirReadsT os dir size n x.1

/-! ### hid -/

/-- report_transport.go:33-46 `ReadReport`: text of the error, if there is one. -/
def reportText (r : ReadT) : Option Bytes :=
  match r.err with
  | some f => some f.text
  | none => if r.data.length < 3 then some (plainText .noProgress) else none

/-- report_def.go:97-104: text of the error of `Find`. An int prints in decimal with `%#v`. -/
def findText (defs : List ReportDef) (id : UInt8) : Option Bytes :=
  match find defs id.toNat with
  | some _ => none
  | none => some (ascii "report id no found: " ++ formatInt10 id.toNat)

/-- hid.go:88-120: text of the error of `ReadFrame`, if it returns one; the errors are passed on as they are. The link control
decides whether another report is read. -/
def frameText (defs : List ReportDef) : List ReadT → Option Bytes
  | [] => some (plainText .eof)
  | r :: rs =>
    match reportText r with
    | some t => some t
    | none =>
      match r.data with
      | id :: lc :: _ =>
        match findText defs id with
        | some t => some t
        | none => if lc = linkControlDone ∨ lc = linkControlContinue then none else frameText defs rs
      | _ => none

/-- hid.go:88-120 `ReadFrame` with the text of the error: what is left to read, the buffer, and the frame or the error. -/
def readFrameT (grow : Growth) (defs : List ReportDef) (rs : List ReadT) (buf : Slice) :
    Out (List ReadT × Slice × Except Fault Slice) :=
  readFrame grow defs (rs.map fun r => rawReadReport r.res) buf >>= fun x =>
  .ret (rs.drop (rs.length - x.1.length), x.2.1,
    match x.2.2 with
    | .ok f => .ok f
    | .error e => .error ⟨e, (frameText defs rs).getD []⟩)

/-- As `frameReads` (Model/Server.lean): `n` successive calls. See cmd/ipod/main.go:335-336. -/
def frameReadsT (grow : Growth) (defs : List ReportDef) : Nat → List ReadT → Slice → Out (List (Except Fault Slice))
  | 0, _, _ => .ret []
  | n + 1, rs, buf =>
    readFrameT grow defs rs buf >>= fun x =>
    frameReadsT grow defs n x.1 x.2.1 >>= fun more => .ret (x.2.2 :: more)

/-- hid.go:34-69 `WriteFrame`, as `writeFrameLoop` (Model/Hid.lean), with the texts of the errors: of `Pick` (report_def.go:90) or
of the writer. -/
def writeFrameLoopT (defs : List ReportDef) (fails : Nat → Option Fault) (data : Bytes) :
    Nat → List Report → Nat → Nat → Option (Out (List Report × Option Fault))
  | 0, _, _, _ => none
  | fuel + 1, log, offset, bytesLeft =>
    if bytesLeft = 0 then some (.ret (log, none))
    else
      match pick defs bytesLeft .accIn with
      | none => some (.ret (log, some ⟨Err.noReport, ascii "no matching report found"⟩))
      | some reportDef =>
        if reportDef.maxPayload < 0 then some .panic
        else
          let maxPayload := reportDef.maxPayload.toNat
          let payloadLen := if bytesLeft > maxPayload then maxPayload else bytesLeft
          let linkControl :=
            if bytesLeft > maxPayload then
              if offset = 0 then linkControlMoreToFollow else linkControlContinue ||| linkControlMoreToFollow
            else if offset > 0 then linkControlContinue
            else linkControlDone
          let part := (data.drop offset).take payloadLen
          let reportData := part ++ List.replicate (maxPayload - part.length) 0
          let report : Report := ⟨byteOfInt reportDef.id, linkControl, reportData⟩
          match fails log.length with
          | some f => some (.ret (log ++ [report], some f))
          | none => writeFrameLoopT defs fails data fuel (log ++ [report]) (offset + payloadLen) (bytesLeft - payloadLen)

/-- hid.go:34-69 `WriteFrame`, observed for `fuel` rounds. -/
def writeFrameT (fuel : Nat) (defs : List ReportDef) (fails : Nat → Option Fault) (log : List Report) (data : Bytes) :
    Option (Out (List Report × Option Fault)) :=
  writeFrameLoopT defs fails data fuel log 0 data.length

/-- report_transport.go:65-66 with `(*bytes.Buffer).WriteTo`, as `rawWriteReport`, with the text of the error. -/
def writeReportText (r : Report) (answer : Nat × Option Fault) : Option Bytes :=
  match answer.2 with
  | some f => some f.text
  | none => if answer.1 ≠ (rawReportBytes r).length then some (plainText .shortWrite) else none

/-! ### The log -/

/-- main.go:293-317 `logFrame`, `logPacket`, with the text of the error. -/
def sayLen (n : Nat) (err : Option Bytes) (msg : Bytes) : Line :=
  match err with
  | some t => ⟨errorLevel, msg, [("len", .num n), ("error", .text t)]⟩
  | none => ⟨infoLevel, msg, [("len", .num n)]⟩

/-- main.go:319-330 `logCmd`, with the text of the error. -/
def sayCmd (cmd : Command) (err : Option Bytes) (msg : Bytes) : Line :=
  match err with
  | some t => ⟨errorLevel, msg, commandFields cmd ++ [("error", .text t)]⟩
  | none => ⟨infoLevel, msg, commandFields cmd⟩

/-- main.go:346-360 and 453-466, as `readLogged`, with the texts of the errors. -/
def readSaid (lib : BinTexts) (pre : Bytes) (mode : Bool) (frame : Slice) : Out (Bool × List Command × List Line) :=
  match _h : readPacket frame with
  | .panic => .panic
  | .ret (rest, .error e) =>
    if e = .eof then .ret (mode, [], [])
    else readSaid lib pre mode rest >>= fun y =>
      .ret (y.1, y.2.1, sayLen 0 (some (plainText e)) (pre ++ ascii "PACKET") :: y.2.2)
  | .ret (rest, .ok pkt) =>
    unmarshalCmd mode pkt >>= fun x =>
    unmarshalText lib mode pkt >>= fun t =>
    readSaid lib pre x.1 rest >>= fun y =>
    .ret (y.1, x.2.1 :: y.2.1,
      sayLen pkt.length none (pre ++ ascii "PACKET") :: (modeLines mode x.1 ++ sayCmd x.2.1 t (pre ++ ascii "CMD") :: y.2.2))
termination_by frame.data.length
decreasing_by
  all_goals
    have hp := readPacket_progress frame.data frame.spare _ _ _h
    simp only [ne_eq, reduceCtorEq, false_and, not_false_eq_true, true_and, false_or, Except.error.injEq] at hp
    have hp : ∃ pre, frame.data = pre ++ rest.data ∧ (0x55 : UInt8) ∈ pre := by
      first
        | exact hp.2.2
        | (rcases hp with ⟨h1, _⟩ | ⟨_, _, _, h2⟩
           · contradiction
           · exact h2)
    obtain ⟨pre, h4, h5⟩ := hp
    have := List.length_pos_of_mem h5
    rw [h4, List.length_append]
    omega

/-- main.go:368-380, as `sendLogged`, with the texts of the errors. -/
def sendSaid (lib : BinTexts) (werr : Nat → Option Fault) (k : Nat) (mode : Bool) : List Command → Bool × List Bytes × List Line
  | [] => (mode, [], [])
  | cmd :: cmds =>
    let x := marshalCmd mode cmd
    let outPacket := match x.2 with
      | .ok p => p
      | .error _ => []
    let outFrame := (writePacket newPacketWriter outPacket).1
    let y := sendSaid lib werr (k + 1) x.1 cmds
    (y.1, outFrame :: y.2.1,
      sayCmd cmd none (ascii ">> CMD") :: (modeLines mode x.1 ++ sayLen outPacket.length (marshalText lib cmd) (ascii ">> PACKET") ::
        sayLen outFrame.length ((werr k).map (·.text)) (ascii ">> FRAME") :: y.2.2))

/-- main.go:345-380, as `frameLogged`, with the texts of the errors. -/
def frameSaid {σ : Type} (D : Device σ) (clock : Clock) (dlog : Command → Ctx σ → List Line) (lib : BinTexts)
    (werr : Nat → Option Fault) (k : Nat) (s : Srv σ) (frame : Slice) : Out (Srv σ × List Bytes × List Line) :=
  readSaid lib (ascii "<< ") s.mode frame >>= fun x =>
  handleLogged D clock dlog x.2.1 { s.ctx with out := [] } >>= fun c =>
  let y := sendSaid lib werr k x.1 c.1.out
  .ret (⟨y.1, { c.1 with out := [] }⟩, y.2.1, x.2.2 ++ c.2 ++ y.2.2)

/-- main.go:332-384 `processFrames`, as `framesLogged`, with the texts of the errors. -/
def framesSaid {σ : Type} (D : Device σ) (clock : Clock) (dlog : Command → Ctx σ → List Line) (lib : BinTexts)
    (werr : Nat → Option Fault) : Nat → List (Except Fault Slice) → Srv σ → Out (Srv σ × List Bytes × List Line)
  | _, [], s => .ret (s, [], [⟨warnLevel, ascii "EOF", []⟩])
  | k, .error f :: reads, s =>
    if f.err = .eof then .ret (s, [], [⟨warnLevel, ascii "EOF", []⟩])
    else
      framesSaid D clock dlog lib werr k reads s >>= fun y => .ret (y.1, y.2.1, sayLen 0 (some f.text) (ascii "<< FRAME") :: y.2.2)
  | k, .ok frame :: reads, s =>
    frameSaid D clock dlog lib werr k s frame >>= fun x =>
    framesSaid D clock dlog lib werr (k + x.2.1.length) reads x.1 >>= fun y =>
    .ret (y.1, x.2.1 ++ y.2.1, sayLen frame.data.length none (ascii "<< FRAME") :: (x.2.2 ++ y.2.2))

/-- main.go:159-161 `serve`, as in Model/Server.lean, with the log. -/
def serveSaid {σ : Type} (D : Device σ) (clock : Clock) (dlog : Command → Ctx σ → List Line) (lib : BinTexts)
    (werr : Nat → Option Fault) (grow : Growth) (defs : List ReportDef) (reads : List ReadT) (s : Srv σ) :
    Out (Srv σ × List Bytes × List Line) :=
  frameReadsT grow defs reads.length reads ⟨[], []⟩ >>= fun frames => framesSaid D clock dlog lib werr 0 frames s

/-- main.go:440-444, as `readFrameQueue` (Model/View.lean), with the text of the error. A queue returns no error but `io.EOF`. -/
def readFrameQueueT (grow : Growth) (defs : List ReportDef) (mem : Ptr → Msg) (d : Trace.Dir) (q : Queue) :
    Out (Queue × Except Fault Slice) :=
  queueReads mem d q.all.length q >>= fun x =>
  readFrameQueue grow defs mem d q >>= fun y =>
  .ret (y.1, match y.2 with
    | .ok f => .ok f
    | .error e => .error ⟨e, (frameText defs (x.2.map fun r => ⟨r.data, r.err.map plainFault⟩)).getD []⟩)

/-- main.go:435-467, as `dumpLogged`, with the texts of the errors. -/
def dumpSaid (lib : BinTexts) (grow : Growth) (defs : List ReportDef) (mem : Ptr → Msg) :
    Nat → Queue → Bool → Out (Option (List Line))
  | 0, _, _ => .ret none
  | fuel + 1, q, mode =>
    match q.head with
    | none => .ret (some [⟨warnLevel, ascii "EOF", []⟩])
    | some head =>
      let dir := (mem head).dir
      readFrameQueueT grow defs mem dir q >>= fun x =>
      match x.2 with
      | .error f =>
        if f.err = .eof then .ret (some [⟨warnLevel, ascii "EOF", []⟩])
        else
          dumpSaid lib grow defs mem fuel x.1 mode >>= fun more =>
          .ret (more.map (sayLen 0 (some f.text) (dirPrefix dir ++ ascii "FRAME") :: ·))
      | .ok frame =>
        readSaid lib (dirPrefix dir) mode frame >>= fun y =>
        dumpSaid lib grow defs mem fuel x.1 y.1 >>= fun more =>
        .ret (more.map fun ls => sayLen frame.data.length none (dirPrefix dir ++ ascii "FRAME") :: (y.2.2 ++ ls))

/-- logrus `FatalLevel`. See cmd/ipod/main.go:428, cmd/ipod/formatter.go:83. -/
def fatalLevel : Level := 1

/-- main.go:419-469 `dumpTrace` with the log. `log.Fatal(err)` (428) prints the text of the error as the message and ends the
program. -/
def viewSaid (lib : BinTexts) (os : Err → Bytes) (grow : Growth) (defs : List ReportDef) (fuel : Nat) (r : Reader) :
    Out (Option (List Line)) :=
  match loadFault os r with
  | .error f => .ret (some [⟨fatalLevel, f.text, []⟩])
  | .ok ms =>
    let mem : Ptr → Msg := fun p => (ms[p]?).getD Msg.zero
    enqueueAll mem (List.range ms.length) Queue.empty >>= fun q => dumpSaid lib grow defs mem fuel q false

end Ipod.Log
