import Verif.Spec.Gadget
import Verif.Spec.Trace

/-!
# Specification of `ipod replay`, `ipod view` and `ipod send` as functions of the text of the trace file

From the bytes of the file to what the gadget of `Spec/Gadget` answers, to the frames that are shown, and to the reports that are sent.
Nothing of the model is used but the names of errors and of the results of `Read`.
-/

namespace Spec
open Go Ipod Ipod.Hid

/-! ### the text -/

/-- The lines of a text; the last one need not end with a newline. -/
def fileLines : Bytes → List Bytes
  | [] => []
  | c :: r =>
    if c = 0x0A then [] :: fileLines r
    else match fileLines r with
      | [] => [[c]]
      | l :: ls => (c :: l) :: ls

/-- A line without one carriage return at its end. -/
def lineText (l : Bytes) : Bytes := if l.getLast? = some 0x0D then l.dropLast else l

/-- The value of a hex digit. -/
def hexValue (c : UInt8) : Option Nat :=
  if 48 ≤ c.toNat ∧ c.toNat ≤ 57 then some (c.toNat - 48)
  else if 65 ≤ c.toNat ∧ c.toNat ≤ 70 then some (c.toNat - 55)
  else if 97 ≤ c.toNat ∧ c.toNat ≤ 102 then some (c.toNat - 87)
  else none

/-- The bytes a text begins with, two digits each; `none` if a single digit is left. -/
def leadingBytes : Bytes → Option Bytes
  | [] => some []
  | a :: r =>
    match hexValue a with
    | none => some []
    | some x =>
      match r with
      | [] => none
      | b :: r =>
        match hexValue b with
        | none => none
        | some y => (leadingBytes r).map (UInt8.ofNat (x * 16 + y) :: ·)

/-- A text without the white space at its beginning. -/
def trimWhite (s : Bytes) : Bytes :=
  match h : whiteSpaces.find? (·.isPrefixOf s) with
  | some w => trimWhite (s.drop w.length)
  | none => s
termination_by s.length
decreasing_by
  have h1 := List.find?_some h
  have h2 : w ≠ [] := by
    have : ∀ w ∈ whiteSpaces, w ≠ [] := by decide
    exact this w (List.mem_of_find?_eq_some h)
  have h3 := (List.isPrefixOf_iff_prefix.1 h1).length_le
  have h4 := List.length_pos_iff.2 h2
  rw [List.length_drop]; omega

/-- The message in the text of a line: `false` for one to the iPod, `true` for one from it. -/
def lineMessage : Bytes → Option (Bool × Bytes)
  | sign :: _ :: rest =>
    if rest.length < 2 then none
    else match leadingBytes (trimWhite (rest.filter (· ≠ 0x20))) with
      | some (b :: bs) => if sign = 0x3C then some (false, b :: bs) else if sign = 0x3E then some (true, b :: bs) else none
      | _ => none
  | _ => none

/-- The lines of a file that are not empty, up to the first that is too long: messages, or nonsense (`none`). -/
def fileMessages (content : Bytes) : List (Option (Bool × Bytes)) :=
  (((fileLines content).takeWhile fun l => l.length < 65536).map lineText).filterMap fun t =>
    if t = [] then none else some (lineMessage t)

/-- How reading the file ends. -/
def fileEnd (content : Bytes) (ending : Option Err) : Err :=
  if (fileLines content).all (·.length < 65536) then ending.getD .eof else .tooLong

/-! ### replay -/

/-- What a server is given to read for the file: the messages to the iPod, of which 1024 bytes count, and an error for nonsense. -/
def fileReads (content : Bytes) : List ReadRes :=
  (fileMessages content).filterMap fun m : Option (Bool × Bytes) => match m with
    | some (false, d) => some { data := d.take 1024, err := none }
    | some (true, _) => none
    | none => some { data := [], err := some Err.badTrace }

/-- The first `n` reads: those of the file, then the error at its end again and again. -/
def fileReadsN (content : Bytes) (ending : Option Err) (n : Nat) : List ReadRes :=
  (fileReads content ++ List.replicate n ({ data := [], err := some (fileEnd content ending) } : ReadRes)).take n

/-- How the server is doing. -/
inductive Doing where
  | waits
  | ended
  | died
deriving DecidableEq

/-- How the gadget is doing after these reads, and all the frames it has written. -/
def Gadget.plays (legacy : Bool) (clock : Clock) : Gadget → List ReadRes → Doing × List Bytes
  | _, [] => (.waits, [])
  | g, r :: rs =>
    match g.reads legacy clock r with
    | .ends => (.ended, [])
    | .dies => (.died, [])
    | .goes g' frames => ((g'.plays legacy clock rs).1, frames ++ (g'.plays legacy clock rs).2)

/-! ### send -/

/-- What is sent to the device: the messages to the iPod, up to the first nonsense or message of less than three bytes. -/
def fileSends (content : Bytes) : List Bytes :=
  ((fileReads content).takeWhile fun r => r.err = none ∧ 3 ≤ r.data.length).map (·.data)

/-! ### view -/

/-- What the messages of one direction begin with: how many of them make up a frame, and the frame, or the error that ends it;
`none` if they do not complete one. -/
def firstFrame (legacy : Bool) : Bytes → List Bytes → Option (Nat × Except Err Bytes)
  | _, [] => none
  | part, b :: bs =>
    match seen legacy ⟨b, none⟩ with
    | .report link d =>
      if link = 0x00 then some (1, .ok d)
      else if link = 0x01 then some (1, .ok (part ++ d))
      else (firstFrame legacy (if link = 0x02 then d else if link = 0x03 then part ++ d else part) bs).map fun x => (x.1 + 1, x.2)
    | _ => some (1, .error (if (b.take 1024).length < 3 then .noProgress else Err.noReport))

/-- Without the first `n` messages of one direction. -/
def without (dir : Bool) : Nat → List (Bool × Bytes) → List (Bool × Bytes)
  | 0, ms => ms
  | _ + 1, [] => []
  | n + 1, m :: ms => if m.1 = dir then without dir n ms else m :: without dir (n + 1) ms

theorem without_le (dir : Bool) (n : Nat) (ms : List (Bool × Bytes)) : (without dir n ms).length ≤ ms.length := by
  fun_induction without dir n ms with
  | case1 => exact Nat.le_refl _
  | case2 => exact Nat.le_refl _
  | case3 n m ms h ih => simp; omega
  | case4 n m ms h ih => simp; omega

/-- What is shown of the messages: the frames, that direction first to which the first message left belongs; nothing more once that
one has no complete frame left. -/
def shows (legacy : Bool) (ms : List (Bool × Bytes)) : List (Bool × Except Err Bytes) :=
  match ms with
  | [] => []
  | m :: ms =>
    match firstFrame legacy [] (((m :: ms).filter (·.1 = m.1)).map (·.2)) with
    | none => []
    | some (n, f) => (m.1, f) :: shows legacy (without m.1 (n - 1) ms)
termination_by ms.length
decreasing_by
  have := without_le m.1 (n - 1) ms
  simp only [List.length_cons]; omega

/-- Transactions after these packets. -/
def trxThrough (on : Bool) (packets : List Bytes) : Bool :=
  packets.foldl (fun on p => match splitID p with
    | some (l, c, _) => trxAfter l c on
    | none => on) on

/-- Packets the iPod dies of (`Pod.hears`: of decoding them, whatever its state but for the transactions). -/
def fatal (on : Bool) (packets : List Bytes) : Bool :=
  ((⟨on, 0x00, 0, 0⟩ : Pod).hearsAll (fun _ => ⟨2000, 1, 1, 0, 0⟩) packets).isNone

/-- The packets of the frames can be decoded one after another, whatever direction they belong to. -/
def survived : Bool → List (Bool × Except Err Bytes) → Bool
  | _, [] => true
  | on, (_, .error _) :: evs => survived on evs
  | on, (_, .ok f) :: evs => !fatal on (packetsIn f) && survived (trxThrough on (packetsIn f)) evs

/-- The frames shown without an error. -/
def framesShown (evs : List (Bool × Except Err Bytes)) : List Bytes :=
  evs.filterMap fun e => match e.2 with
    | .ok f => some f
    | .error _ => none

end Spec
