/-!
# The part of the Go language the code relies on

Errors are values (`Except Err α` for `(T, error)` results where the value is meaningless on error),
a run-time panic is an explicit outcome (`Out`), and slices carry their spare capacity.
-/

namespace Go

/-- A Go byte string. `byte` is `uint8`. -/
abbrev Bytes := List UInt8

/-- Errors the code returns or compares against. Only `io.EOF` is ever compared with `==` in the
repository (cmd/ipod/main.go:337,349,424,445,456; lingo-extremote/extremote.go:222); the other
constructors are kept apart for readability. -/
inductive Err where
  /-- `io.EOF` -/
  | eof
  /-- `io.ErrUnexpectedEOF` -/
  | unexpectedEOF
  /-- `io.ErrNoProgress` -/
  | noProgress
  /-- `io.ErrShortWrite` -/
  | shortWrite
  /-- `bufio.ErrTooLong` -/
  | tooLong
  /-- any other error value, tagged (errors.New / fmt.Errorf in the code, or an OS error) -/
  | other (tag : Nat)
deriving DecidableEq, Repr

/-- Tags for `Err.other` used by the model, one per `errors.New`/`fmt.Errorf` site. -/
abbrev Err.checksum : Err := .other 1      -- packet.go:58
abbrev Err.emptyPacket : Err := .other 2   -- packet.go:90
abbrev Err.invalidType : Err := .other 3   -- encoding/binary: "invalid type"
abbrev Err.nilPayload : Err := .other 4    -- cmd.go:103
abbrev Err.unknownCmd : Err := .other 5    -- cmd.go:135
abbrev Err.shortPacket : Err := .other 6   -- lingo-general/general.go:268,274
abbrev Err.unknownToken : Err := .other 7  -- lingo-general/general.go:616
abbrev Err.unknownAck : Err := .other 8    -- lingo-general/general.go:740
abbrev Err.unknownInfo : Err := .other 9   -- general.go:539, dispremote.go:242,369, handler.go:100,163
abbrev Err.invalidData : Err := .other 10  -- lingo-simpleremote/simpleremote.go:63
abbrev Err.payloadNotKnown : Err := .other 11 -- cmd.go:168
abbrev Err.noReport : Err := .other 12     -- hid/report_def.go:90,103
abbrev Err.badTrace : Err := .other 13     -- trace/trace.go:26,31,42,57,66,76
abbrev Err.parseTag : Err := .other 14     -- lingo.go:106

instance instDecidableEqExcept {ε α : Type} [DecidableEq ε] [DecidableEq α] : DecidableEq (Except ε α)
  | .ok a, .ok b => if h : a = b then isTrue (by rw [h]) else isFalse (by simpa using h)
  | .error a, .error b => if h : a = b then isTrue (by rw [h]) else isFalse (by simpa using h)
  | .ok _, .error _ => isFalse (by simp)
  | .error _, .ok _ => isFalse (by simp)

/-- Outcome of running code that may panic. -/
inductive Out (α : Type) where
  | ret (a : α)
  | panic
deriving DecidableEq, Repr

namespace Out

/-- Sequencing: a panic aborts everything after it (no `recover` occurs in the repository). -/
def bind {α β : Type} : Out α → (α → Out β) → Out β
  | ret a, f => f a
  | panic, _ => panic

instance : Monad Out where
  pure := ret
  bind := bind

@[simp] theorem bind_ret {α β : Type} (a : α) (f : α → Out β) : (Out.ret a >>= f) = f a := rfl
@[simp] theorem bind_panic {α β : Type} (f : α → Out β) : (Out.panic >>= f) = Out.panic := rfl
@[simp] theorem pure_eq {α : Type} (a : α) : (pure a : Out α) = Out.ret a := rfl

end Out

/-- A Go `[]byte`: the visible elements and the rest of the backing array up to the capacity
(`len s = s.data.length`, `cap s = s.data.length + s.spare.length`). -/
structure Slice where
  data : Bytes
  spare : Bytes
deriving DecidableEq, Repr

namespace Slice

/-- `len(s)`. -/
abbrev len (s : Slice) : Nat := s.data.length

/-- `cap(s)`. -/
abbrev cap (s : Slice) : Nat := s.data.length + s.spare.length

/-- A slice without spare capacity. -/
abbrev exact (b : Bytes) : Slice := ⟨b, []⟩

/-- `s[:hi]`. Go allows `hi` up to the *capacity* (spec, "Slice expressions": "for slices, the upper index
bound is the slice capacity cap(a) rather than the length"), otherwise it panics. -/
def upTo (s : Slice) (hi : Nat) : Out Slice :=
  if hi ≤ s.cap then .ret ⟨(s.data ++ s.spare).take hi, (s.data ++ s.spare).drop hi⟩ else .panic

/-- `s[lo:]`, i.e. `s[lo:len(s)]`: panics when `lo > len(s)`. -/
def fromLo (s : Slice) (lo : Nat) : Out Slice :=
  if lo ≤ s.len then .ret ⟨s.data.drop lo, s.spare⟩ else .panic

/-- `s[lo:hi]`. -/
def range (s : Slice) (lo hi : Nat) : Out Slice :=
  if lo ≤ hi ∧ hi ≤ s.cap then
    .ret ⟨((s.data ++ s.spare).take hi).drop lo, (s.data ++ s.spare).drop hi⟩
  else .panic

end Slice

/-- Index expression `b[i]` on a byte slice: panics when out of range. -/
def index (b : Bytes) (i : Nat) : Out UInt8 :=
  match b[i]? with
  | some x => .ret x
  | none => .panic

/-- Index-based reslice `b[lo:]` on a byte slice of which only the visible part matters. -/
def dropOrPanic (b : Bytes) (lo : Nat) : Out Bytes :=
  if lo ≤ b.length then .ret (b.drop lo) else .panic

end Go
