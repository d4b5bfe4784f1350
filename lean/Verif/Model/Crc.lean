import Verif.Go.Basic

/-! Model of crc.go -/

namespace Ipod
open Go

/-- crc.go:36-42 `Checksum`: byte accumulator (wraps mod 256), result negated. -/
def checksum (p : Bytes) : UInt8 := -(p.foldl (fun crc v => crc + v) 0)

/-- crc.go:12-14 `crc8`. -/
structure Crc8 where
  crc : UInt8
deriving DecidableEq, Repr

namespace Crc8

/-- crc.go:32-34 `NewCRC8`. -/
def new : Crc8 := ⟨0⟩

/-- crc.go:16-21 `(*crc8).Write`: returns `len(p)` and never an error. -/
def write (c : Crc8) (p : Bytes) : Crc8 × Nat := (⟨p.foldl (fun crc v => crc + v) c.crc⟩, p.length)

/-- crc.go:23 `(*crc8).Sum8`. -/
def sum8 (c : Crc8) : UInt8 := -c.crc

/-- crc.go:25-27 `(*crc8).Sum`: appends to the argument; the state is not modified. -/
def sum (c : Crc8) (inp : Bytes) : Crc8 × Bytes := (c, inp ++ [c.sum8])

/-- crc.go:28 `(*crc8).Reset`. -/
def reset (_ : Crc8) : Crc8 := ⟨0⟩

/-- crc.go:29-30 `Size`, `BlockSize`. -/
def size (_ : Crc8) : Nat := 1
/-- See crc.go:30. -/
def blockSize (_ : Crc8) : Nat := 1

end Crc8
end Ipod
