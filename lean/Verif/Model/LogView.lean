import Verif.Model.Log
import Verif.Model.View

/-! Model of the log of the trace viewer (cmd/ipod/main.go:409-469). -/

namespace Ipod.Log
open Go Ipod.Hid Ipod.Trace

/-- main.go:409-418 `dirPrefix`, without the text that follows. -/
def dirPrefix (d : Trace.Dir) : Bytes :=
  if d = dirIn then ascii "<< " else if d = dirOut then ascii ">> " else ascii "?? "

/-- main.go:435-467, the second loop of `dumpTrace`, with the log; `none` if it is still running after `fuel` rounds. -/
def dumpLogged (grow : Growth) (defs : List ReportDef) (mem : Ptr → Msg) :
    Nat → Queue → Bool → Out (Option (List Line))
  | 0, _, _ => .ret none
  | fuel + 1, q, mode =>
    match q.head with
    | none => .ret (some [⟨warnLevel, ascii "EOF", []⟩])
    | some head =>
      let dir := (mem head).dir
      readFrameQueue grow defs mem dir q >>= fun x =>
      match x.2 with
      | .error e =>
        if e = .eof then .ret (some [⟨warnLevel, ascii "EOF", []⟩])
        else
          dumpLogged grow defs mem fuel x.1 mode >>= fun more =>
          .ret (more.map (logLen 0 (some e) (dirPrefix dir ++ ascii "FRAME") :: ·))
      | .ok frame =>
        readLogged (dirPrefix dir) mode frame >>= fun y =>
        dumpLogged grow defs mem fuel x.1 y.1 >>= fun more =>
        .ret (more.map fun ls => logLen frame.data.length none (dirPrefix dir ++ ascii "FRAME") :: (y.2.2 ++ ls))

/-- main.go:419-469 `dumpTrace` with the log; the outer error stands for `log.Fatal`. -/
def viewLogged (grow : Growth) (defs : List ReportDef) (fuel : Nat) (r : Reader) : Except Err (Out (Option (List Line))) :=
  match loadTrace r with
  | .error e => .error e
  | .ok ms =>
    let mem : Ptr → Msg := fun p => (ms[p]?).getD Msg.zero
    .ok (enqueueAll mem (List.range ms.length) Queue.empty >>= fun q => dumpLogged grow defs mem fuel q false)

end Ipod.Log
