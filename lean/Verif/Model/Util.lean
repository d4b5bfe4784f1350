import Verif.Go.Basic

/-! Model of util.go. Go strings are byte sequences. -/

namespace Ipod
open Go

/-- util.go:3-8 `BoolToByte`. -/
def boolToByte (b : Bool) : UInt8 := if b then 0x01 else 0x00

/-- util.go:10-12 `ByteToBool`. -/
def byteToBool (b : UInt8) : Bool := b = 0x01

/-- util.go:15-17 `StringToBytes`. -/
def stringToBytes (s : Bytes) : Bytes := s ++ [0x00]

end Ipod
