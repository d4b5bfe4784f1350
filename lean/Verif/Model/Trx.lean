import Verif.Model.Serde

/-! Model of the transaction pointers and of concurrent calls to `TrxNext` (cmd.go:35-62,187-195). -/

namespace Ipod
open Go

/-- The cells holding `Transaction` values; a `*Transaction` is nil or an index. See cmd.go:35-40. -/
abbrev TrxHeap := List UInt16

/-- cmd.go:37-40 `NewTransaction`: a new cell. -/
def newTransaction (h : TrxHeap) (t : UInt16) : TrxHeap × Option Nat := (h ++ [t], some h.length)

/-- `*p`: nil dereference panics. See cmd.go:52,59,100. -/
def derefTrx (h : TrxHeap) (p : Option Nat) : Out UInt16 :=
  match p with
  | none => .panic
  | some a => match h[a]? with
    | some t => .ret t
    | none => .panic  -- no dangling pointers in Go

/-- cmd.go:50-56 `(*Transaction).Copy`. -/
def copyTrx (h : TrxHeap) (p : Option Nat) : Out (TrxHeap × Option Nat) :=
  match p with
  | none => .ret (h, none)
  | some a => derefTrx h (some a) >>= fun t => .ret (newTransaction h t)

/-- cmd.go:57-62 `(*Transaction).Delta`; `int` is 64 bits wide. -/
def deltaTrx (h : TrxHeap) (p : Option Nat) (d : Int64) : Out (TrxHeap × Option Nat) :=
  match p with
  | none => .ret (h, none)
  | some a => derefTrx h (some a) >>= fun t =>
    .ret (newTransaction h (Int64.ofNat t.toNat + d).toUInt64.toUInt16)

/-- Goroutines calling `TrxNext` (cmd.go:192-195): the atomic counter, the calls that have done their
`atomic.AddUint32` but not yet returned, and the numbers returned so far. -/
structure TrxCalls where
  counter : UInt32
  pending : List (Nat × UInt32)
  returned : List (Nat × UInt16)

/-- One step of goroutine `g`: the atomic add of a new call if it is not inside one, else the conversion and
return. See cmd.go:192-195. -/
def TrxCalls.step (s : TrxCalls) (g : Nat) : TrxCalls :=
  match s.pending.find? (fun p => p.1 = g) with
  | none => { s with counter := s.counter + 1, pending := s.pending ++ [(g, s.counter + 1)] }
  | some p => { s with pending := s.pending.erase p, returned := s.returned ++ [(g, p.2.toUInt16)] }

/-- An interleaving: which goroutine steps next. See cmd.go:192-195. -/
def TrxCalls.run (s : TrxCalls) (schedule : List Nat) : TrxCalls := schedule.foldl TrxCalls.step s

/-- `k` calls of `TrxNext` one after another. See cmd.go:192-195. -/
def trxNexts (c : UInt32) : Nat → UInt32 × List UInt16
  | 0 => (c, [])
  | k + 1 =>
    let (c, t) := trxNext c
    let (c, ts) := trxNexts c k
    (c, t :: ts)

end Ipod
