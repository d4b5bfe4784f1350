import Verif.Go.Format

/-! The parts of reflect and strconv (Go 1.13) that read struct tags: `StructTag.Get` and `ParseUint(_, 0, 16)`. -/

namespace Go

/-! ### strconv/atoi.go -/

/-- strconv/atoi.go `lower`. -/
def lower (c : UInt8) : UInt8 := c ||| 0x20

/-- The value of a digit or letter in `ParseUint`; `none` for other characters. -/
def digitVal (c : UInt8) : Option Nat :=
  if 0x30 ≤ c ∧ c ≤ 0x39 then some (c - 0x30).toNat
  else if 0x61 ≤ lower c ∧ lower c ≤ 0x7A then some ((lower c - 0x61).toNat + 10)
  else none

/-- The loop of `ParseUint`, base given as 0 (so that underscores are accepted): the number and whether there were underscores.
`none` for an error. Simplification: the largest value is 65535 here, so no product overflows an uint64 and the test against
`cutoff` never succeeds. -/
def parseLoop (base : Nat) : Bytes → Nat → Bool → Option (Nat × Bool)
  | [], n, underscores => some (n, underscores)
  | c :: cs, n, underscores =>
    if c = 0x5F then parseLoop base cs n true
    else
      match digitVal c with
      | none => none
      | some d => if d ≥ base then none else if n * base + d > 65535 then none else parseLoop base cs (n * base + d) underscores

/-- The loop of `underscoreOK`; `i` is the class of the last character: `0` a digit or the prefix, `_`, `!` another, `^` at the
beginning. -/
def underscoreLoop (hex : Bool) : UInt8 → Bytes → Bool
  | i, [] => i ≠ 0x5F
  | i, c :: cs =>
    if (0x30 ≤ c ∧ c ≤ 0x39) ∨ (hex ∧ 0x61 ≤ lower c ∧ lower c ≤ 0x66) then underscoreLoop hex 0x30 cs
    else if c = 0x5F then if i ≠ 0x30 then false else underscoreLoop hex 0x5F cs
    else if i = 0x5F then false
    else underscoreLoop hex 0x21 cs

/-- strconv/atoi.go `underscoreOK`. -/
def underscoreOK (s : Bytes) : Bool :=
  let s := match s with
    | c :: cs => if c = 0x2D ∨ c = 0x2B then cs else s
    | [] => s
  match s with
  | z :: x :: cs =>
    if z = 0x30 ∧ (lower x = 0x62 ∨ lower x = 0x6F ∨ lower x = 0x78) then underscoreLoop (lower x = 0x78) 0x30 cs
    else underscoreLoop false 0x5E s
  | s => underscoreLoop false 0x5E s

/-- The base `ParseUint` takes a text for, and the text behind the prefix. -/
def intBase (s : Bytes) : Nat × Bytes :=
  match s with
  | z :: cs =>
    if z = 0x30 then
      match cs with
      | x :: y :: cs' =>
        if lower x = 0x62 then (2, y :: cs') else if lower x = 0x6F then (8, y :: cs') else if lower x = 0x78 then (16, y :: cs') else (8, cs)
      | _ => (8, cs)
    else (10, s)
  | [] => (10, [])

/-- strconv/atoi.go `ParseUint(s, 0, 16)`; `none` for an error. -/
def parseUint16 (s : Bytes) : Option Nat :=
  if s = [] then none
  else
    match parseLoop (intBase s).1 (intBase s).2 0 false with
    | none => none
    | some (n, underscores) => if underscores ∧ ¬ underscoreOK s then none else some n

/-! ### reflect/type.go -/

/-- A character of a key in `StructTag.Lookup`. -/
def tagKeyChar (c : UInt8) : Bool := c > 0x20 ∧ c ≠ 0x3A ∧ c ≠ 0x22 ∧ c ≠ 0x7F

/-- The text up to the closing quote and the text behind it; a backslash hides the character that follows. -/
def quoted : Bytes → Option (Bytes × Bytes)
  | [] => none
  | [c] => if c = 0x22 then some ([], []) else none
  | c :: c' :: cs =>
    if c = 0x22 then some ([], c' :: cs)
    else if c = 0x5C then (quoted cs).map fun x => (c :: c' :: x.1, x.2)
    else (quoted (c' :: cs)).map fun x => (c :: x.1, x.2)

/-- strconv/quote.go `Unquote` on the text between double quotes. `escapes` stands for its treatment of backslashes and of
characters outside ASCII. -/
def unquote (escapes : Bytes → Option Bytes) (s : Bytes) : Option Bytes :=
  if (0x0A : UInt8) ∈ s then none
  else if ∀ c ∈ s, c ≠ 0x5C ∧ c < 0x80 then some s
  else escapes s

/-- reflect/type.go `StructTag.Lookup`; the loop ends within as many rounds as the tag has characters. -/
def tagLookup (escapes : Bytes → Option Bytes) (key : Bytes) : Nat → Bytes → Option Bytes
  | 0, _ => none
  | fuel + 1, tag =>
    let tag := tag.dropWhile (· = 0x20)
    let name := tag.takeWhile tagKeyChar
    if name = [] then none
    else
      match tag.dropWhile tagKeyChar with
      | a :: b :: rest =>
        if a = 0x3A ∧ b = 0x22 then
          match quoted rest with
          | none => none
          | some (value, rest) => if key = name then unquote escapes value else tagLookup escapes key fuel rest
        else none
      | _ => none

/-- reflect/type.go `StructTag.Get`. -/
def tagGet (escapes : Bytes → Option Bytes) (key tag : Bytes) : Bytes := (tagLookup escapes key tag.length tag).getD []

end Go
