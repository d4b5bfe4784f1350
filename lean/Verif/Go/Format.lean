import Verif.Go.Basic

/-! The parts of strconv, fmt and strings that make texts out of numbers and lists. Texts are their bytes; every text
here is ASCII. -/

namespace Go

/-- The bytes of a string constant (UTF-8; the constants here are ASCII). -/
def ascii (s : String) : Bytes := s.toByteArray.data.toList

/-- fmt/format.go `ldigits`, strconv/itoa.go `digits`. -/
def ldigits : Bytes := ascii "0123456789abcdef"

/-- The digit loop of strconv/itoa.go `formatBits` and fmt/format.go `fmtInteger`: digits of `n` are put in front of
`buf`, the last one first; the loop ends with the digit that is the rest. `fuel`: at least the number of digits less
one. -/
def digitLoop (base : Nat) : Nat → Nat → Bytes → Bytes
  | 0, n, buf => ldigits.getD (n % base) 0 :: buf
  | fuel + 1, n, buf =>
    if n ≥ base then digitLoop base fuel (n / base) (ldigits.getD (n % base) 0 :: buf)
    else ldigits.getD n 0 :: buf

/-- `strconv.FormatInt(i, 10)` for a non-negative `i` (strconv/itoa.go). Simplification: the real loop makes two
decimal digits at a time. -/
def formatInt10 (n : Nat) : Bytes := digitLoop 10 64 n []

/-- fmt/format.go `fmtInteger` for the verb `%0<wid>x` with or without `#`: the width is taken as the least number of
digits, the prefix comes on top of it. -/
def fmtHex (sharp : Bool) (wid n : Nat) : Bytes :=
  let buf := digitLoop 16 64 n []
  let buf := List.replicate (wid - buf.length) (0x30 : UInt8) ++ buf
  if sharp then 0x30 :: 0x78 :: buf else buf

/-- fmt/format.go `fmtSbx` for the verb `%#x` on a string: a prefix (unless the string is empty) and two lower-case
digits per byte. (The width 4 of the only use never pads a non-empty string.) -/
def fmtStringHex (s : Bytes) : Bytes :=
  if s = [] then []
  else 0x30 :: 0x78 :: s.flatMap fun c : UInt8 => [ldigits.getD (c >>> 4).toNat 0, ldigits.getD (c &&& 0x0F).toNat 0]

/-- `strings.Join`. -/
def joinStrings (sep : Bytes) : List Bytes → Bytes
  | [] => []
  | [s] => s
  | s :: ss => s ++ sep ++ joinStrings sep ss

/-- A long string constant in pieces. -/
def pieces (ps : List String) : Bytes := ps.flatMap ascii

/-- `s[a:b]` of a string. -/
def substr (s : Bytes) (a b : Nat) : Bytes := (s.take b).drop a

end Go
