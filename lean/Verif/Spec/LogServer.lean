import Verif.Spec.Log
import Verif.Spec.Server
import Verif.Model.Log

/-! Specification of the log of the server: what happens, and how it is shown. -/

namespace Spec
open Go Ipod Ipod.Log

/-- What happens in the server. -/
inductive Event where
  | frameIn (r : Except Err Bytes)
  | packetIn (r : Except Err Bytes)
  | transactions (on : Bool)
  | cmdIn (cmd : Command) (err : Option Err)
  | unsupported
  | device (l : Line)
  | cmdOut (cmd : Command)
  | packetOut (r : Except Err Bytes)
  | frameOut (f : Bytes) (err : Option Err)
  | finished

/-- The text of the type of a payload. -/
def TypeText : Payload → Bytes → Prop
  | .nil, s => s = ascii "<nil>"
  | .unknown _, s => s = ascii "ipod.UnknownPayload"
  | .ptr t _, s => s = ascii "*" ++ ascii t.typeName

/-- The text of an optional transaction. -/
def TrxText : Option UInt16 → Bytes → Prop
  | none, s => s = ascii "<nil>"
  | some t, s => HexNumber 4 t.toNat s

/-- The fields of a command: id, transaction, type. -/
def CmdFields (cmd : Command) (fs : List (String × Val)) : Prop :=
  ∃ id trx ty, IdText "" "," "" (cmd.id >>> 16).toUInt8 cmd.id.toUInt16 id ∧ TrxText cmd.trx trx ∧ TypeText cmd.payload ty ∧
    fs = [("id", .text id), ("trx", .text trx), ("type", .text ty)]

/-- How it is shown: errors with level 2 and the error, warnings with level 3, the rest with level 4. `pre` is the mark of the
direction of what comes in. -/
inductive ShownAs (pre : String) : Event → Line → Prop
  | frameIn {f} : ShownAs pre (.frameIn (.ok f)) ⟨4, ascii pre ++ ascii "FRAME", [("len", .num f.length)]⟩
  | frameInErr {e} : ShownAs pre (.frameIn (.error e)) ⟨2, ascii pre ++ ascii "FRAME", [("len", .num 0), ("error", .err e)]⟩
  | packetIn {p} : ShownAs pre (.packetIn (.ok p)) ⟨4, ascii pre ++ ascii "PACKET", [("len", .num p.length)]⟩
  | packetInErr {e} : ShownAs pre (.packetIn (.error e)) ⟨2, ascii pre ++ ascii "PACKET", [("len", .num 0), ("error", .err e)]⟩
  | on : ShownAs pre (.transactions true) ⟨3, ascii "Enabling transaction support", []⟩
  | off : ShownAs pre (.transactions false) ⟨3, ascii "Disabling transaction support", []⟩
  | cmdIn {cmd fs} : CmdFields cmd fs → ShownAs pre (.cmdIn cmd none) ⟨4, ascii pre ++ ascii "CMD", fs⟩
  | cmdInErr {cmd fs e} : CmdFields cmd fs → ShownAs pre (.cmdIn cmd (some e)) ⟨2, ascii pre ++ ascii "CMD", fs ++ [("error", .err e)]⟩
  | unsupported : ShownAs pre .unsupported ⟨3, ascii "Lingo SimpleRemote is not supported yet", []⟩
  | device {l} : ShownAs pre (.device l) l
  | cmdOut {cmd fs} : CmdFields cmd fs → ShownAs pre (.cmdOut cmd) ⟨4, ascii ">> CMD", fs⟩
  | packetOut {p} : ShownAs pre (.packetOut (.ok p)) ⟨4, ascii ">> PACKET", [("len", .num p.length)]⟩
  | packetOutErr {e} : ShownAs pre (.packetOut (.error e)) ⟨2, ascii ">> PACKET", [("len", .num 0), ("error", .err e)]⟩
  | frameOut {f} : ShownAs pre (.frameOut f none) ⟨4, ascii ">> FRAME", [("len", .num f.length)]⟩
  | frameOutErr {f e} : ShownAs pre (.frameOut f (some e)) ⟨2, ascii ">> FRAME", [("len", .num f.length), ("error", .err e)]⟩
  | finished : ShownAs pre .finished ⟨3, ascii "EOF", []⟩

/-- The lines of the events, one each, in order. -/
inductive ShownAll (pre : String) : List Event → List Line → Prop
  | nil : ShownAll pre [] []
  | cons {ev l evs ls} : ShownAs pre ev l → ShownAll pre evs ls → ShownAll pre (ev :: evs) (l :: ls)

/-- `ScanItems spare d items`: going through the frame `d` from start byte to start byte, the packets (`some`) and the places where
no packet begins (`none`). -/
inductive ScanItems (spare : Bytes) : Bytes → List (Option Bytes) → Prop
  | done {d} : Filler d → ScanItems spare d []
  | packet {j w rest p l} : Filler j → IsPacket p w → ScanItems spare rest l → ScanItems spare (j ++ w ++ rest) (some p :: l)
  | skip {j d l} : Filler j → ¬ PacketHere (0x55 :: d) → ¬ Overruns spare d → ScanItems spare d l →
      ScanItems spare (j ++ 0x55 :: d) (none :: l)

/-- A change of the mode is an event. -/
def modeEvents (m m' : Bool) : List Event := if m = m' then [] else [.transactions m']

/-- The items of a frame are decoded one after another. -/
inductive InEvents : Bool → List (Option Bytes) → Bool → List Command → List Event → Prop
  | nil {m} : InEvents m [] m [] []
  | bad {m l m' cmds evs e} : e ≠ .eof → InEvents m l m' cmds evs → InEvents m (none :: l) m' cmds (.packetIn (.error e) :: evs)
  | packet {m m1 m' p l cmd cmds err evs} : unmarshalCmd m p = .ret (m1, cmd, err) → InEvents m1 l m' cmds evs →
      InEvents m (some p :: l) m' (cmd :: cmds) (.packetIn (.ok p) :: (modeEvents m m1 ++ .cmdIn cmd err :: evs))

/-- What the handling of a command shows: the device's own lines, for commands of the general lingo; that simple remote is not
supported. -/
def handlerEvents {σ : Type} (dlog : Command → Ctx σ → List Line) (cmd : Command) (c : Ctx σ) : List Event :=
  if (cmd.id >>> 16).toUInt8 = 0x00 then (dlog cmd c).map .device
  else if (cmd.id >>> 16).toUInt8 = 0x02 then [.unsupported]
  else []

/-- The commands are handled one after another; `news` is what each of them made the device send. -/
inductive HandleEvents {σ : Type} (D : Device σ) (clock : Clock) (dlog : Command → Ctx σ → List Line) :
    List Command → Ctx σ → Ctx σ → List (List Command) → List Event → Prop
  | nil {c} : HandleEvents D clock dlog [] c c [] []
  | cons {cmd cmds c c' c'' new news evs} : Handles D clock cmd c c' new → HandleEvents D clock dlog cmds c' c'' news evs →
      HandleEvents D clock dlog (cmd :: cmds) c c'' (new :: news) (handlerEvents dlog cmd c ++ evs)

/-- `f` is the frame for the packet `p`, provided the packet writer can write it. -/
def PacketFrame (p f : Bytes) : Prop := p.length ≤ 65535 ∧ p.length ≠ 256 → IsPacket p f

/-- The answers are encoded and written one after another; `w` are the frames handed to the transport, which reports
`werr k` for number `k`. -/
inductive OutEvents (werr : Nat → Option Err) : Nat → Bool → List Command → Bool → List Bytes → List Event → Prop
  | nil {k m} : OutEvents werr k m [] m [] []
  | cons {k m m1 m' cmd cmds r f w evs} : marshalCmd m cmd = (m1, r) → (∀ p, r = .ok p → PacketFrame p f) → (∀ e, r = .error e → f = []) →
      OutEvents werr (k + 1) m1 cmds m' w evs →
      OutEvents werr k m (cmd :: cmds) m' (f :: w)
        (.cmdOut cmd :: (modeEvents m m1 ++ .packetOut r :: .frameOut f (werr k) :: evs))

/-- The whole run: the results of `ReadFrame` one after another. -/
inductive RunEvents {σ : Type} (D : Device σ) (clock : Clock) (dlog : Command → Ctx σ → List Line) (werr : Nat → Option Err) :
    Nat → Srv σ → List (Except Err Slice) → Srv σ → List Bytes → List Event → Prop
  | done {k s} : RunEvents D clock dlog werr k s [] s [] [.finished]
  | eof {k s reads} : RunEvents D clock dlog werr k s (.error .eof :: reads) s [] [.finished]
  | error {k s e reads s' w evs} : e ≠ .eof → RunEvents D clock dlog werr k s reads s' w evs →
      RunEvents D clock dlog werr k s (.error e :: reads) s' w (.frameIn (.error e) :: evs)
  | frame {k s f reads s' l m m' cmds c news w w' e1 e2 e3 e4} : ScanItems f.spare f.data l → InEvents s.mode l m cmds e1 →
      HandleEvents D clock dlog cmds { s.ctx with out := [] } c news e2 → OutEvents werr k m news.flatten m' w e3 →
      RunEvents D clock dlog werr (k + w.length) ⟨m', { c with out := [] }⟩ reads s' w' e4 →
      RunEvents D clock dlog werr k s (.ok f :: reads) s' (w ++ w') (.frameIn (.ok f.data) :: (e1 ++ e2 ++ e3 ++ e4))

/-- Something went wrong: as the server sees it, or as the device says. -/
def Bad : Event → Bool
  | .frameIn (.error _) => true
  | .packetIn (.error _) => true
  | .cmdIn _ (some _) => true
  | .packetOut (.error _) => true
  | .frameOut _ (some _) => true
  | .device l => l.level = 2
  | _ => false

/-- The mode after the events, if it was `m` before. -/
def modeLogged (m : Bool) : List Event → Bool
  | [] => m
  | .transactions b :: evs => modeLogged b evs
  | _ :: evs => modeLogged m evs

/-- Each event about the mode is a change of it. -/
def Alternating (m : Bool) : List Event → Prop
  | [] => True
  | .transactions b :: evs => b ≠ m ∧ Alternating b evs
  | _ :: evs => Alternating m evs

/-- The mode according to the lines, if it was `m` before. -/
def modeShown (m : Bool) : List Line → Bool
  | [] => m
  | l :: ls =>
    modeShown (if l.message = ascii "Enabling transaction support" then true
      else if l.message = ascii "Disabling transaction support" then false else m) ls

/-- The device prints nothing that looks like a frame sent or a change of the mode. -/
def Modest {σ : Type} (dlog : Command → Ctx σ → List Line) : Prop :=
  ∀ cmd c, ∀ l ∈ dlog cmd c,
    l.message ∉ [ascii ">> FRAME", ascii "Enabling transaction support", ascii "Disabling transaction support"]

/-- The length shown by a line with the message. -/
def lenShown (message : String) (l : Line) : Option Nat :=
  if l.message = ascii message then
    match l.fields with
    | ("len", .num n) :: _ => some n
    | _ => none
  else none

end Spec
