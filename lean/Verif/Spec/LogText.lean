import Verif.Model.LogText
import Verif.Spec.Course
import Verif.Spec.ErrText
import Verif.Spec.LogView
import Verif.Spec.TraceFile
import Verif.Lemmas.RealRegistry

/-! What the errors of trace files, transport and packets say, by their cause, and the log with these texts. -/

namespace Spec
open Go Ipod Ipod.Hid Ipod.Log Ipod.Trace

/-- The character number `c` in UTF-8. -/
inductive CharText (c : UInt8) : Bytes → Prop
  | one : c.toNat < 128 → CharText c [c]
  | two {a b : UInt8} : 128 ≤ c.toNat → a.toNat = 192 + c.toNat / 64 → b.toNat = 128 + c.toNat % 64 → CharText c [a, b]

/-- The numbers of the bytes in decimal. -/
inductive Numbers : Bytes → List Bytes → Prop
  | nil : Numbers [] []
  | cons {c d cs ds} : NumberText 10 1 (UInt8.toNat c) d → Numbers cs ds → Numbers (c :: cs) (d :: ds)

/-- Why a text is not a direction. -/
inductive DirFails (t : Bytes) : Bytes → Prop
  | length {ds s} : t.length ≠ 1 → Numbers t ds → Joined (ascii " ") ds s →
      DirFails t (ascii "trace dir unmarshal: bad value [" ++ s ++ ascii "]")
  | symbol {c s} : t = [c] → c ≠ 0x3C → c ≠ 0x3E → CharText c s →
      DirFails t (ascii "trace dir unmarshal: unknown symbol '" ++ s ++ ascii "'")

/-- Why a line is not accepted: too short, another sign, or no digits where they should be. -/
inductive LineFails (t : Bytes) : Bytes → Prop
  | short : t.length < 4 → LineFails t (ascii "trace unmarshal: short msg")
  | sign {c r s} : 4 ≤ t.length → t = c :: r → c ≠ 0x3C → c ≠ 0x3E → CharText c s →
      LineFails t (ascii "trace dir unmarshal: unknown symbol '" ++ s ++ ascii "'")
  | data {c r} : 4 ≤ t.length → t = c :: r → c = 0x3C ∨ c = 0x3E → (∀ d data, ¬ LooseLine t d data) →
      LineFails t (ascii "trace unmarshal: bad data")

/-- Why a message cannot be written down. -/
inductive MsgFails (m : Msg) : Bytes → Prop
  | dir {s} : m.dir ≠ 0 → m.dir ≠ 1 → NumberText 10 1 m.dir.toNat s → MsgFails m (ascii "bad dir: " ++ s)
  | empty : m.dir = 0 ∨ m.dir = 1 → m.data = [] → MsgFails m (ascii "trace marshal: no data")

/-- What the lines of a file tell, the next number being `i`: messages, and for lines not accepted the text of the error. -/
inductive Tells : Nat → List Bytes → List (Except Bytes Msg) → Prop
  | nil {i} : Tells i [] []
  | empty {i l ls rs} : TextOf l [] → Tells i ls rs → Tells i (l :: ls) rs
  | msg {i l ls rs t d data} : TextOf l t → LooseLine t d data → Tells (i + 1) ls rs →
      Tells i (l :: ls) (.ok ⟨d, UInt64.ofNat i, data⟩ :: rs)
  | bad {i l ls rs t x} : TextOf l t → t ≠ [] → LineFails t x → (∀ d data, ¬ LooseLine t d data) → Tells i ls rs →
      Tells i (l :: ls) (.error x :: rs)

/-- The first error. -/
def firstError : List (Except Bytes Msg) → Option Bytes
  | [] => none
  | .error x :: _ => some x
  | .ok _ :: rs => firstError rs

/-- The error after the last message, unless it is the end of the file: a line was too long, or the file cannot be read further. -/
def endText (os : Err → Bytes) (ls : List Bytes) (ending : Option Err) : Option Bytes :=
  if ∃ l ∈ ls, 65536 ≤ l.length then some (ascii "bufio.Scanner: token too long")
  else
    match ending with
    | none => none
    | some e => if e = .eof then none else some (os e)

/-- What a reader of one direction returns, given room for `size` bytes; nothing for a message of the other direction. -/
def dirSays (dir : Trace.Dir) (size : Nat) : Except Bytes Msg → Option ReadT
  | .ok m => if m.dir = dir then some ⟨m.data.take size, none⟩ else none
  | .error x => some ⟨[], some ⟨Err.badTrace, x⟩⟩

/-- A read that returned these bytes and no error. -/
def goodT (b : Bytes) : ReadT := ⟨b, none⟩

/-- The reads of a call of `ReadFrame` that fails, and what its error says: that of the device, no report at all, or a report with
an unknown id. -/
inductive CallSays (defs : List ReportDef) : List ReadT → Bytes → Prop
  | device {bs d f} : Unfinished defs bs → CallSays defs (bs.map goodT ++ [⟨d, some f⟩]) f.text
  | short {bs d} : Unfinished defs bs → d.length < 3 →
      CallSays defs (bs.map goodT ++ [goodT d]) (ascii "multiple Read calls return no data or error")
  | unknown {bs id lc d0 d s} : Unfinished defs bs → (∀ r ∈ defs, r.id ≠ UInt8.toNat id) → NumberText 10 1 id.toNat s →
      CallSays defs (bs.map goodT ++ [goodT (id :: lc :: d0 :: d)]) (ascii "report id no found: " ++ s)

/-- The results of successive calls of `ReadFrame`; `io.EOF` when there is nothing more to read. -/
inductive HeardT (defs : List ReportDef) : List ReadT → List (Except Fault Slice) → Prop
  | rest {bs n} : Unfinished defs bs → HeardT defs (bs.map goodT) (List.replicate n (.error ⟨.eof, ascii "EOF"⟩))
  | frame {used rest f fs} : ReadCall defs (used.map (·.res)) (.ok (Slice.data f)) → HeardT defs rest fs →
      HeardT defs (used ++ rest) (.ok f :: fs)
  | error {used rest f fs} : ReadCall defs (used.map (·.res)) (.error (Fault.err f)) → CallSays defs used f.text → HeardT defs rest fs →
      HeardT defs (used ++ rest) (.error f :: fs)

/-! ### the log -/

/-- The items of a frame: packets, and what is said of the places where none begins. -/
inductive TextItems (spare : Bytes) : Bytes → List (Except Bytes Bytes) → Prop
  | done {d} : Filler d → TextItems spare d []
  | packet {j w rest p l} : Filler j → IsPacket p w → TextItems spare rest l → TextItems spare (j ++ w ++ rest) (.ok p :: l)
  | short {j d l} : Filler j → d.length < 3 → TextItems spare d l →
      TextItems spare (j ++ 0x55 :: d) (.error (ascii "unexpected EOF") :: l)
  | damaged {j d l} : Filler j → 3 ≤ d.length → ¬ PacketHere (0x55 :: d) → ¬ Overruns spare d → TextItems spare d l →
      TextItems spare (j ++ 0x55 :: d) (.error (ascii "invalid checksum") :: l)

/-- An event, and what its error says. -/
abbrev Said := Event × Option Bytes

/-- Events without errors. -/
def silent (evs : List Event) : List Said := evs.map fun ev => (ev, none)

/-- The items of a frame are decoded one after another. -/
inductive InSaid (lib : BinTexts) : Bool → List (Except Bytes Bytes) → Bool → List Command → List Said → Prop
  | nil {m} : InSaid lib m [] m [] []
  | bad {m l m' cmds evs e x} : InSaid lib m l m' cmds evs →
      InSaid lib m (.error x :: l) m' cmds ((.packetIn (.error e), some x) :: evs)
  | packet {m m1 m' p l cmd cmds evs} : unmarshalCmd m p = .ret (m1, cmd, none) → InSaid lib m1 l m' cmds evs →
      InSaid lib m (.ok p :: l) m' (cmd :: cmds)
        (silent (.packetIn (.ok p) :: (modeEvents m m1 ++ [.cmdIn cmd none])) ++ evs)
  | refused {m m1 m' p l cmd cmds e x evs} : unmarshalCmd m p = .ret (m1, cmd, some e) →
      PacketFails lib (registrations registryCalls) m p x → InSaid lib m1 l m' cmds evs →
      InSaid lib m (.ok p :: l) m' (cmd :: cmds)
        (silent (.packetIn (.ok p) :: modeEvents m m1) ++ (.cmdIn cmd (some e), some x) :: evs)

/-- What an error with its text is as an event. -/
def ofFault (f : Option Fault) : Option Err × Option Bytes := (f.map (·.err), f.map (·.text))

/-- The answers are encoded and written one after another. -/
inductive OutSaid (lib : BinTexts) (werr : Nat → Option Fault) : Nat → Bool → List Command → Bool → List Bytes → List Said → Prop
  | nil {k m} : OutSaid lib werr k m [] m [] []
  | packet {k m m1 m' cmd cmds p f w evs} : marshalCmd m cmd = (m1, .ok p) → PacketFrame p f →
      OutSaid lib werr (k + 1) m1 cmds m' w evs →
      OutSaid lib werr k m (cmd :: cmds) m' (f :: w)
        (silent (.cmdOut cmd :: (modeEvents m m1 ++ [.packetOut (.ok p)])) ++
          (.frameOut f (ofFault (werr k)).1, (ofFault (werr k)).2) :: evs)
  | refused {k m m1 m' cmd cmds e x w evs} : marshalCmd m cmd = (m1, .error e) → SendFails lib cmd.payload x →
      OutSaid lib werr (k + 1) m1 cmds m' w evs →
      OutSaid lib werr k m (cmd :: cmds) m' ([] :: w)
        (silent (.cmdOut cmd :: modeEvents m m1) ++ (.packetOut (.error e), some x) ::
          (.frameOut [] (ofFault (werr k)).1, (ofFault (werr k)).2) :: evs)

/-- The whole run. -/
inductive RunSaid {σ : Type} (D : Device σ) (clock : Clock) (dlog : Command → Ctx σ → List Line) (lib : BinTexts)
    (werr : Nat → Option Fault) : Nat → Srv σ → List (Except Fault Slice) → Srv σ → List Bytes → List Said → Prop
  | done {k s} : RunSaid D clock dlog lib werr k s [] s [] [(.finished, none)]
  | eof {k s f reads} : Fault.err f = .eof → RunSaid D clock dlog lib werr k s (.error f :: reads) s [] [(.finished, none)]
  | error {k s f reads s' w evs} : Fault.err f ≠ .eof → RunSaid D clock dlog lib werr k s reads s' w evs →
      RunSaid D clock dlog lib werr k s (.error f :: reads) s' w ((.frameIn (.error f.err), some f.text) :: evs)
  | frame {k s f reads s' l m m' cmds c news w w' e1 e2 e3 e4} : TextItems f.spare f.data l → InSaid lib s.mode l m cmds e1 →
      HandleEvents D clock dlog cmds { s.ctx with out := [] } c news e2 → OutSaid lib werr k m news.flatten m' w e3 →
      RunSaid D clock dlog lib werr (k + w.length) ⟨m', { c with out := [] }⟩ reads s' w' e4 →
      RunSaid D clock dlog lib werr k s (.ok f :: reads) s' (w ++ w')
        ((.frameIn (.ok f.data), none) :: (e1 ++ silent e2 ++ e3 ++ e4))

/-- The line with the text in place of the error. -/
def withText (x : Option Bytes) (l : Line) : Line :=
  match x with
  | none => l
  | some x => { l with fields := l.fields.map fun f => if f.1 = "error" then (f.1, .text x) else f }

/-- The lines of the events, one each, in order, with the texts of the errors. -/
inductive SaidAll (pre : String) : List Said → List Line → Prop
  | nil : SaidAll pre [] []
  | cons {ev l evs ls} : ShownAs pre ev.1 l → SaidAll pre evs ls → SaidAll pre (ev :: evs) (withText ev.2 l :: ls)

/-- The fields of a line as texts: numbers in decimal, errors by what they say. -/
inductive FieldsShown (says : Err → Bytes) : List (String × Val) → List (Bytes × Bytes) → Prop
  | nil : FieldsShown says [] []
  | num {k n s l d} : NumberText 10 1 n s → FieldsShown says l d → FieldsShown says ((k, .num n) :: l) ((ascii k, s) :: d)
  | text {k s l d} : FieldsShown says l d → FieldsShown says ((k, .text s) :: l) ((ascii k, s) :: d)
  | err {k e l d} : FieldsShown says l d → FieldsShown says ((k, .err e) :: l) ((ascii k, says e) :: d)

/-- An event that is an error. -/
def isError : Event → Bool
  | .frameIn (.error _) | .packetIn (.error _) | .cmdIn _ (some _) | .packetOut (.error _) | .frameOut _ (some _) => true
  | _ => false

/-- A line that can be printed: it has a level, no field twice, and numbers as there are. -/
def Presentable (l : Line) : Prop :=
  l.level.toNat ≤ 6 ∧ (l.fields.map fun f => ascii f.1).Nodup ∧ ∀ f ∈ l.fields, match f.2 with
    | .num n => n < 2 ^ 63
    | _ => True

/-- A line that can be printed and whose text is settled: the text of an error is in it. -/
def Printable (l : Line) : Prop := Presentable l ∧ ∀ f ∈ l.fields, ∀ e, f.2 ≠ .err e

/-- The log of the viewer: `ms` are the messages left. -/
inductive ViewSaid (lib : BinTexts) (defs : List ReportDef) : Bool → List Msg → List Line → Prop
  | done {m} : ViewSaid lib defs m [] [⟨3, ascii "EOF", []⟩]
  | cut {m msg ms} : Unfinished defs (ofDir msg.dir (msg :: ms)) → ViewSaid lib defs m (msg :: ms) [⟨3, ascii "EOF", []⟩]
  | error {m msg ms used ms' e x ls} : OneCall defs used (.error e) → CallSays defs (used.map goodT) x →
      Taken msg.dir used (msg :: ms) ms' → ViewSaid lib defs m ms' ls →
      ViewSaid lib defs m (msg :: ms) (⟨2, ascii (mark msg.dir) ++ ascii "FRAME", [("len", .num 0), ("error", .text x)]⟩ :: ls)
  | frame {m m' msg ms used ms' f spare items cmds evs l ls} : OneCall defs used (.ok f) → Taken msg.dir used (msg :: ms) ms' →
      TextItems spare f items → InSaid lib m items m' cmds evs → SaidAll (mark msg.dir) ((.frameIn (.ok f), none) :: evs) l →
      ViewSaid lib defs m' ms' ls → ViewSaid lib defs m (msg :: ms) (l ++ ls)

end Spec
