import Verif.Spec.LogText
import Verif.Spec.Gadget
import Verif.Model.Voice

/-! Specification of all that can be watched of `ipod serve`: what happens at the device and what is said about it, in order. -/

namespace Spec
open Go Ipod Ipod.Hid Ipod.Log Ipod.Trace

/-- Why a read brings no report, unless it is the end: the device reports an error, there is less than a report, or it is a report
with an unknown id. -/
inductive NoReport (legacy : Bool) (r : ReadT) : Bytes → Prop
  | device {f} : r.err = some f → f.err ≠ .eof → NoReport legacy r f.text
  | short : r.err = none → r.data.length < 3 → NoReport legacy r (ascii "multiple Read calls return no data or error")
  | unknown {id d s} : r.err = none → 3 ≤ r.data.length → r.data = id :: d → (rooms legacy).lookup id = none →
      NumberText 10 1 id.toNat s → NoReport legacy r (ascii "report id no found: " ++ s)

/-- Something that can be watched: at the device, or an event with the text of its error, told by a line. -/
inductive Happening where
  | deed (d : Deed)
  | said (s : Said)

/-- The operation on the device. -/
def Deed.op : Deed → TOp
  | .got r => .read r
  | .put b none => .write b ⟨b.length, none⟩
  | .put b (some e) => .write b ⟨0, some e⟩

/-- What is watched of it. -/
inductive Watched : List Happening → List Item → Prop
  | nil : Watched [] []
  | deed {d hs is} : Watched hs is → Watched (.deed d :: hs) (.op d.op :: is)
  | said {s l hs is} : ShownAs "<< " s.1 l → Watched hs is → Watched (.said s :: hs) (.say (withText s.2 l) :: is)

/-- A frame in which the decoder finds its end: what is said before. Either a packet goes beyond the frame, or one is malformed. -/
inductive Breaks (lib : BinTexts) (spare : Bytes) : Bool → Bytes → List Said → Prop
  | overrun {m j d} : Filler j → Overruns spare d → Breaks lib spare m (j ++ 0x55 :: d) []
  | malformed {m j w rest p} : Filler j → IsPacket p w → Malformed m p →
      Breaks lib spare m (j ++ w ++ rest) [(.packetIn (.ok p), none)]
  | short {m j d e evs} : Filler j → d.length < 3 → Breaks lib spare m d evs →
      Breaks lib spare m (j ++ 0x55 :: d) ((.packetIn (.error e), some (ascii "unexpected EOF")) :: evs)
  | damaged {m j d e evs} : Filler j → 3 ≤ d.length → ¬ PacketHere (0x55 :: d) → ¬ Overruns spare d → Breaks lib spare m d evs →
      Breaks lib spare m (j ++ 0x55 :: d) ((.packetIn (.error e), some (ascii "invalid checksum")) :: evs)
  | packet {m m1 j w rest p cmd evs} : Filler j → IsPacket p w → unmarshalCmd m p = .ret (m1, cmd, none) →
      Breaks lib spare m1 rest evs →
      Breaks lib spare m (j ++ w ++ rest) (silent (.packetIn (.ok p) :: (modeEvents m m1 ++ [.cmdIn cmd none])) ++ evs)
  | refused {m m1 j w rest p cmd e x evs} : Filler j → IsPacket p w → unmarshalCmd m p = .ret (m1, cmd, some e) →
      PacketFails lib (registrations registryCalls) m p x → Breaks lib spare m1 rest evs →
      Breaks lib spare m (j ++ w ++ rest) (silent (.packetIn (.ok p) :: modeEvents m m1) ++ (.cmdIn cmd (some e), some x) :: evs)

/-- What the device says to the first of these reports it does not take; the first of them is number `i`. -/
def refusal {α : Type} (fails : Nat → Option Fault) (i : Nat) : List α → Option Fault
  | [] => none
  | _ :: rs =>
    match fails i with
    | some f => some f
    | none => refusal fails (i + 1) rs

/-- The frame for a command that was encoded, or not. -/
def frameFor : Except Err Bytes → Bytes
  | .ok p => frameBytes p
  | .error _ => []

/-- What is said of an encoding: nothing, or why it failed. -/
def EncodingSays (lib : BinTexts) (payload : Payload) : Except Err Bytes → Option Bytes → Prop
  | .ok _, x => x = none
  | .error _, x => ∃ t, x = some t ∧ SendFails lib payload t

/-- The answers are encoded and written one after another: what is said, the reports handed to the device, and what it made of
them. `i` reports were written before, `i'` afterwards. -/
inductive OutDone (lib : BinTexts) (legacy : Bool) (fails : Nat → Option Fault) :
    Nat → Bool → List Command → Nat → Bool → List Happening → Prop
  | nil {i m} : OutDone lib legacy fails i m [] i m []
  | cons {i i' m m1 m' cmd cmds out ds x hs} : marshalCmd m cmd = (m1, out) →
      ds = puts (fun j => (fails j).map (·.err)) i (reportsOf legacy true (frameFor out)) →
      EncodingSays lib cmd.payload out x →
      OutDone lib legacy fails (i + ds.length) m1 cmds i' m' hs →
      OutDone lib legacy fails i m (cmd :: cmds) i' m'
        ((silent (.cmdOut cmd :: modeEvents m m1) ++ [((Event.packetOut out, x) : Said)]).map .said ++ (ds.map .deed ++
          .said (.frameOut (frameFor out) (ofFault (refusal fails i (reportsOf legacy true (frameFor out)))).1,
            (ofFault (refusal fails i (reportsOf legacy true (frameFor out)))).2) :: hs))

/-- How the server is, when it stops being watched. -/
inductive Fate where
  | waits
  | ended
  | crashed
deriving DecidableEq

/-- All that can be watched while the device's reads give these results: `part` has been received of a frame, `i` reports were
written. -/
inductive Serves {σ : Type} (D : Device σ) (clock : Clock) (dlog : Command → Ctx σ → List Line) (lib : BinTexts) (legacy : Bool)
    (fails : Nat → Option Fault) : Bytes → Srv σ → Nat → List ReadT → List Happening → Fate → Prop
  | rest {part s i} : Serves D clock dlog lib legacy fails part s i [] [] .waits
  | eof {part s i r rs} : seen legacy r.res = .eof →
      Serves D clock dlog lib legacy fails part s i (r :: rs) [.deed (.got r.res), .said (.finished, none)] .ended
  | refused {part s i r rs x e hs fate} : NoReport legacy r x → Serves D clock dlog lib legacy fails [] s i rs hs fate →
      Serves D clock dlog lib legacy fails part s i (r :: rs)
        (.deed (.got r.res) :: .said (.frameIn (.error e), some x) :: hs) fate
  | part {part part' s i r rs link d hs fate} : seen legacy r.res = .report link d → link ≠ 0x00 → link ≠ 0x01 →
      part' = (if link = 0x02 then d else if link = 0x03 then part ++ d else part) →
      Serves D clock dlog lib legacy fails part' s i rs hs fate →
      Serves D clock dlog lib legacy fails part s i (r :: rs) (.deed (.got r.res) :: hs) fate
  | frame {part s i i' r rs link d f spare items m m' cmds c news e1 e2 hs hs' fate} : seen legacy r.res = .report link d →
      link = 0x00 ∧ f = d ∨ link = 0x01 ∧ f = part ++ d →
      TextItems spare f items → InSaid lib s.mode items m cmds e1 →
      HandleEvents D clock dlog cmds { s.ctx with out := [] } c news e2 → OutDone lib legacy fails i m news.flatten i' m' hs →
      Serves D clock dlog lib legacy fails [] ⟨m', { c with out := [] }⟩ i' rs hs' fate →
      Serves D clock dlog lib legacy fails part s i (r :: rs)
        (.deed (.got r.res) :: (((.frameIn (.ok f), none) :: (e1 ++ silent e2)).map .said ++ (hs ++ hs'))) fate
  | crash {part s i r rs link d f spare evs} : seen legacy r.res = .report link d →
      link = 0x00 ∧ f = d ∨ link = 0x01 ∧ f = part ++ d → Breaks lib spare s.mode f evs →
      Serves D clock dlog lib legacy fails part s i (r :: rs)
        (.deed (.got r.res) :: ((.frameIn (.ok f), none) :: evs).map .said) .crashed

/-- The operations on the device among what is watched. -/
def deviceOps : List Item → List TOp
  | [] => []
  | .op o :: is => o :: deviceOps is
  | .say _ :: is => deviceOps is

/-- The lines of the log among what is watched. -/
def logLines : List Item → List Line
  | [] => []
  | .op _ :: is => logLines is
  | .say l :: is => l :: logLines is

/-- A report the device did not take. -/
def refusedWrite : TOp → Bool
  | .write _ ⟨_, some _⟩ => true
  | _ => false

/-- A line that says a frame was not sent. -/
def refusedFrame (l : Line) : Bool := decide (l.message = ascii ">> FRAME") && l.fields.any fun f => decide (f.1 = "error")

/-- The device's own lines are messages only, and no warnings. -/
def Plain {σ : Type} (dlog : Command → Ctx σ → List Line) : Prop := ∀ cmd c, ∀ l ∈ dlog cmd c, l.fields = [] ∧ l.level ≠ 3

end Spec
