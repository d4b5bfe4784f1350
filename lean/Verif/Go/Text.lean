import Verif.Go.Basic

/-! The parts of fmt, bytes and bufio the trace package uses. Characters are bytes; the few places where fmt works on
runes are noted. -/

namespace Go

/-- fmt/format.go `udigits`. -/
def udigits : Bytes :=
  [0x30, 0x31, 0x32, 0x33, 0x34, 0x35, 0x36, 0x37, 0x38, 0x39, 0x41, 0x42, 0x43, 0x44, 0x45, 0x46]

/-- fmt/format.go `fmtSbx` for the verb `% 02X` on a byte slice: two upper-case digits per byte, a space before every
byte but the first. (The width 2 never pads as the text of a non-empty slice has at least two characters.) -/
def fmtSpacedHex : Bool → Bytes → Bytes
  | _, [] => []
  | first, c :: cs =>
    (if first then [] else [(0x20 : UInt8)]) ++ [udigits.getD (c >>> 4).toNat 0, udigits.getD (c &&& 0x0F).toNat 0] ++
      fmtSpacedHex false cs

/-- fmt/scan.go `hexDigit`. -/
def hexDigit (d : UInt8) : Option UInt8 :=
  if 0x30 ≤ d ∧ d ≤ 0x39 then some (d - 0x30)
  else if 0x61 ≤ d ∧ d ≤ 0x66 then some (10 + (d - 0x61))
  else if 0x41 ≤ d ∧ d ≤ 0x46 then some (10 + (d - 0x41))
  else none

/-- fmt/scan.go `isSpace`, as the length of the encoding of the white-space rune the text begins with. Newline is
treated apart by `SkipSpace`. A rune not among these stops the skipping. -/
def spaceLen : Bytes → Option Nat
  | 0x09 :: _ => some 1
  | 0x0B :: _ => some 1
  | 0x0C :: _ => some 1
  | 0x0D :: _ => some 1
  | 0x20 :: _ => some 1
  | 0xC2 :: 0x85 :: _ => some 2
  | 0xC2 :: 0xA0 :: _ => some 2
  | 0xE1 :: 0x9A :: 0x80 :: _ => some 3
  | 0xE2 :: 0x80 :: c :: _ =>
    if (0x80 ≤ c ∧ c ≤ 0x8A) ∨ c = 0xA8 ∨ c = 0xA9 ∨ c = 0xAF then some 3 else none
  | 0xE2 :: 0x81 :: 0x9F :: _ => some 3
  | 0xE3 :: 0x80 :: 0x80 :: _ => some 3
  | _ => none

/-- fmt/scan.go `(*ss).SkipSpace` as used by `Sscanf` (newline is an error, `\r\n` included). `fuel`: the length of
the text. -/
def skipSpace : Nat → Bytes → Except Err Bytes
  | 0, s => .ok s
  | fuel + 1, s =>
    match s with
    | [] => .ok []
    | 0x0A :: _ => .error Err.badTrace
    | s =>
      match spaceLen s with
      | some k => skipSpace fuel (s.drop k)
      | none => .ok s

/-- fmt/scan.go `(*ss).hexString` with `hexByte`: pairs of hex digits up to the first other character in the place of a
first digit; a missing or other second character is an error. (A non-ASCII rune is not a digit.) -/
def hexString : Bytes → Except Err Bytes
  | [] => .ok []
  | a :: rest =>
    match hexDigit a with
    | none => .ok []
    | some hi =>
      match rest with
      | [] => .error .unexpectedEOF
      | b :: rest =>
        match hexDigit b with
        | none => .error Err.badTrace
        | some lo =>
          match hexString rest with
          | .error e => .error e
          | .ok bs => .ok ((hi <<< 4 ||| lo) :: bs)

/-- `fmt.Sscanf(s, "%x", &data)` for `data []byte`: fmt/scan.go `doScanf`, `convertString`, `hexString`. What follows
the hex data is ignored. -/
def sscanfHex (s : Bytes) : Except Err Bytes :=
  match skipSpace s.length s with
  | .error e => .error e
  | .ok [] => .error .unexpectedEOF
  | .ok s =>
    match hexString s with
    | .error e => .error e
    | .ok [] => .error Err.badTrace
    | .ok bs => .ok bs

/-- `bytes.Join(bytes.Split(s, []byte{c}), []byte{})`. -/
def dropByte (c : UInt8) (s : Bytes) : Bytes := s.filter (· ≠ c)

/-! ### bufio.Scanner with ScanLines -/

/-- bufio/scan.go `MaxScanTokenSize`. -/
abbrev maxScanTokenSize : Nat := 65536

/-- bufio/scan.go `dropCR`. -/
def dropCR (s : Bytes) : Bytes := if s.getLast? = some 0x0D then s.dropLast else s

/-- Outcome of one `Scan`. -/
inductive Scanned where
  | token (text rest : Bytes)
  | tooLong
  | done

/-- `(*bufio.Scanner).Scan` with `ScanLines` on the unread rest of a file: the next line without its newline and one
carriage return before it; a last line need not end in a newline. A line is too long when the buffer of 64 KiB is full
before its newline (or the end of the file) is seen. -/
def scanLine (data : Bytes) : Scanned :=
  if data = [] then .done
  else
    let line := data.takeWhile (· ≠ 0x0A)
    if maxScanTokenSize ≤ line.length then .tooLong
    else .token (dropCR line) (data.drop (line.length + 1))

theorem scanLine_lt {data text rest : Bytes} (h : scanLine data = .token text rest) : rest.length < data.length := by
  unfold scanLine at h
  split at h
  · cases h
  · rename_i hne
    simp only at h
    split at h
    · cases h
    · cases h
      have : data.length ≠ 0 := by simpa using hne
      simp
      omega

end Go
