import Verif.Go.Basic

/-!
# Logs of older versions made into traces (cmd/ipod/scripts/convert_old_log.sh)

The script is `grep -E 'Input|Output' | perl -pne 's/.*Input.*\[(.*)\]/<$1/g' | perl -pne 's/.*Output.*\[(.*)\]/>$1/g'`. Text is bytes, `.` is
any byte but a newline, and what perl sees of a line apart from its newline is the line. The matching is the usual one: leftmost, `.*` as
long as possible first, then shorter.
-/

namespace Ipod.OldLog
open Go

/-- `Input`. See cmd/ipod/scripts/convert_old_log.sh:1. -/
abbrev wordInput : Bytes := [0x49, 0x6E, 0x70, 0x75, 0x74]

/-- `Output`. See cmd/ipod/scripts/convert_old_log.sh:1. -/
abbrev wordOutput : Bytes := [0x4F, 0x75, 0x74, 0x70, 0x75, 0x74]

/-- `.*` and what is to match after it, which is given what `.*` took and the rest: as long as possible first.
See cmd/ipod/scripts/convert_old_log.sh:1. -/
def star {α : Type} (k : Bytes → Bytes → Option α) (taken : Bytes) : Bytes → Option α
  | [] => k taken []
  | c :: s =>
    match star k (taken ++ [c]) s with
    | some x => some x
    | none => k taken (c :: s)

/-- A literal and what is to match after it. See cmd/ipod/scripts/convert_old_log.sh:1. -/
def lit {α : Type} (w : Bytes) (k : Bytes → Option α) (s : Bytes) : Option α :=
  if w.isPrefixOf s then k (s.drop w.length) else none

/-- convert_old_log.sh:1, the expression `.*word.*\[(.*)\]` at the beginning of a text: the group and the rest of the text. -/
def matchHere (word : Bytes) (s : Bytes) : Option (Bytes × Bytes) :=
  star (fun _ s => lit word (fun s =>
    star (fun _ s => lit [0x5B] (fun s =>
      star (fun group s => lit [0x5D] (fun rest => some (group, rest)) s) [] s) s) [] s) s) [] s

/-- convert_old_log.sh:1, `s/.*word.*\[(.*)\]/mark$1/g` on a line: matches from left to right, `fuel` bytes of it at most. -/
def substFrom (word : Bytes) (mark : UInt8) : Nat → Bytes → Bytes
  | 0, s => s
  | fuel + 1, s =>
    match matchHere word s with
    | some (group, rest) => mark :: (group ++ substFrom word mark fuel rest)
    | none =>
      match s with
      | [] => []
      | c :: s => c :: substFrom word mark fuel s

/-- convert_old_log.sh:1, one substitution. -/
def subst (word : Bytes) (mark : UInt8) (line : Bytes) : Bytes := substFrom word mark (line.length + 1) line

/-- Whether a word occurs. See cmd/ipod/scripts/convert_old_log.sh:1. -/
def occurs (word : Bytes) : Bytes → Bool
  | [] => word.isPrefixOf []
  | c :: s => word.isPrefixOf (c :: s) || occurs word s

/-- convert_old_log.sh:1, what `grep` lets through. -/
def kept (line : Bytes) : Bool := occurs wordInput line || occurs wordOutput line

/-- convert_old_log.sh:1, the two `perl`s on a line. -/
def convertLine (line : Bytes) : Bytes := subst wordOutput 0x3E (subst wordInput 0x3C line)

/-- The lines of a text, a last one without newline counting if it is not empty. See cmd/ipod/scripts/convert_old_log.sh:1. -/
def splitLines : Bytes → List Bytes
  | [] => []
  | c :: s =>
    if c = 0x0A then [] :: splitLines s
    else
      match splitLines s with
      | [] => [[c]]
      | l :: ls => (c :: l) :: ls

/-- convert_old_log.sh:1. -/
def convert (text : Bytes) : Bytes := ((splitLines text).filter kept).flatMap fun l => convertLine l ++ [0x0A]

end Ipod.OldLog
