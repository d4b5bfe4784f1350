import Verif.Model.Trace

/-! Specification of trace files and of the trace queue. -/

namespace Spec
open Go Ipod.Trace

/-- The upper-case hex digit of a number below 16. -/
def upperHex (n : Nat) : UInt8 := UInt8.ofNat (if n < 10 then 48 + n else 55 + n)

/-- The two digits of a byte. -/
def hex2 (b : UInt8) : Bytes := [upperHex (b.toNat / 16), upperHex (b.toNat % 16)]

/-- `<` for incoming, `>` for outgoing. -/
def signOf (d : Dir) : Option UInt8 := if d = 0 then some 0x3C else if d = 1 then some 0x3E else none

/-- The line of a message: sign, space, bytes in hex separated by spaces. -/
def lineOf (sign : UInt8) (data : Bytes) : Bytes := sign :: 0x20 :: List.intercalate [0x20] (data.map hex2)

/-- A message that can be written in one line of a trace file a scanner can read (64 KiB with the newline). -/
def Traceable (m : Msg) : Prop := (m.dir = 0 ∨ m.dir = 1) ∧ 1 ≤ m.data.length ∧ m.data.length ≤ 21844

/-- The text of a file with these messages. -/
def traceText (ms : List Msg) : Bytes :=
  ms.flatMap fun m => lineOf ((signOf m.dir).getD 0) m.data ++ [0x0A]

/-- `c` is a hex digit of value `v`. -/
def IsHex (c : UInt8) (v : Nat) : Prop :=
  (48 ≤ c.toNat ∧ c.toNat ≤ 57 ∧ v = c.toNat - 48) ∨ (65 ≤ c.toNat ∧ c.toNat ≤ 70 ∧ v = c.toNat - 55) ∨
  (97 ≤ c.toNat ∧ c.toNat ≤ 102 ∧ v = c.toNat - 87)

/-- `text` consists of the digits of the bytes `data`, two each. -/
inductive HexText : Bytes → Bytes → Prop
  | nil : HexText [] []
  | cons {a b x y rest data} : IsHex a x → IsHex b y → HexText rest data →
      HexText (a :: b :: rest) (UInt8.ofNat (x * 16 + y) :: data)

/-- The white-space characters, in UTF-8, newline excepted. -/
def whiteSpaces : List Bytes :=
  [[0x09], [0x0B], [0x0C], [0x0D], [0x20], [0xC2, 0x85], [0xC2, 0xA0], [0xE1, 0x9A, 0x80],
   [0xE2, 0x80, 0x80], [0xE2, 0x80, 0x81], [0xE2, 0x80, 0x82], [0xE2, 0x80, 0x83], [0xE2, 0x80, 0x84],
   [0xE2, 0x80, 0x85], [0xE2, 0x80, 0x86], [0xE2, 0x80, 0x87], [0xE2, 0x80, 0x88], [0xE2, 0x80, 0x89],
   [0xE2, 0x80, 0x8A], [0xE2, 0x80, 0xA8], [0xE2, 0x80, 0xA9], [0xE2, 0x80, 0xAF], [0xE2, 0x81, 0x9F],
   [0xE3, 0x80, 0x80]]

/-- A well-formed trace line: a sign, a space, and digits and spaces only. -/
def StrictLine (text : Bytes) : Prop :=
  ∃ sign rest, text = sign :: 0x20 :: rest ∧ (sign = 0x3C ∨ sign = 0x3E) ∧ ∀ c ∈ rest, c = 0x20 ∨ ∃ v, IsHex c v

/-- What the code accepts as a line with this direction and data: a sign, any character, and then, spaces not counting,
white space, the digits of at least one byte, and anything not beginning with a digit. -/
def LooseLine (text : Bytes) (d : Dir) (data : Bytes) : Prop :=
  ∃ (sign c : UInt8) (rest : Bytes) (ws : List Bytes) (digits tail : Bytes), text = sign :: c :: rest ∧ 2 ≤ rest.length ∧ signOf d = some sign ∧
    rest.filter (· ≠ 0x20) = ws.flatten ++ digits ++ tail ∧ (∀ w ∈ ws, w ∈ whiteSpaces) ∧
    HexText digits data ∧ data ≠ [] ∧ ∀ t ∈ tail.head?, ∀ v, ¬ IsHex t v

/-! ### the queue -/

/-- Operations of a queue and what they return. -/
inductive QOp where
  | enqueue (msg : Ptr)
  | head
  | dequeue
  | dequeueDir (d : Dir)

/-- The queue as one list: what an operation does and returns. -/
def queueSpec (dirOf : Ptr → Dir) (l : List Ptr) : QOp → List Ptr × Option Ptr
  | .enqueue p => (l ++ [p], none)
  | .head => (l, l.head?)
  | .dequeue => (l.tail, l.head?)
  | .dequeueDir d => (l.eraseP (fun p => dirOf p = d), l.find? (fun p => dirOf p = d))

end Spec
