import Verif.Model.Hid

/-!
# A decoder on one report held in memory (hid/report_transport.go:16-24 `SingleReport`, hid/hid.go:88-120)

`SingleReport` is a report reader that returns the same report at every call.
-/

namespace Ipod.Hid
open Go

/-- Where a call of `ReadFrame` has got: still in its loop, with this in the decoder's buffer; or it has returned. See hid/hid.go:88-120. -/
inductive Progress where
  | looping (buf : Slice)
  | returned (buf : Slice) (r : Except Err Slice)
deriving DecidableEq, Repr

/-- hid.go:92-118: one round of the loop of `ReadFrame`. -/
def decodeRound (grow : Growth) (defs : List ReportDef) (report : Report) (buf : Slice) : Out Progress :=
  match find defs report.id.toNat with
  | none => .ret (.returned buf (.error Err.noReport))
  | some reportDef =>
    if reportDef.maxPayload < 0 then .panic
    else
      let reportData := report.data.take (min report.data.length reportDef.maxPayload.toNat)
      if report.linkControl = linkControlDone then
        let buf := buf.reset.write grow reportData
        .ret (.returned buf (.ok buf))
      else if report.linkControl = linkControlMoreToFollow then .ret (.looping (buf.reset.write grow reportData))
      else if report.linkControl = linkControlContinue ||| linkControlMoreToFollow then .ret (.looping (buf.write grow reportData))
      else if report.linkControl = linkControlContinue then
        let buf := buf.write grow reportData
        .ret (.returned buf (.ok buf))
      else .ret (.looping buf)

/-- hid.go:91-118 with a `SingleReport`: as far as it has got in `n` rounds. -/
def singleRounds (grow : Growth) (defs : List ReportDef) (s : Bytes) : Nat → Slice → Out Progress
  | 0, buf => .ret (.looping buf)
  | n + 1, buf =>
    singleReadReport s >>= fun report =>
    decodeRound grow defs report buf >>= fun p =>
    match p with
    | .returned buf r => .ret (.returned buf r)
    | .looping buf => singleRounds grow defs s n buf

/-- hid.go:88-120 `ReadFrame` with a `SingleReport`. -/
def singleReadFrame (grow : Growth) (defs : List ReportDef) (s : Bytes) (n : Nat) (buf : Slice) : Out Progress :=
  singleRounds grow defs s n buf.reset

end Ipod.Hid
