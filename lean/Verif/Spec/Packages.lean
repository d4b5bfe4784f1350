import Verif.Model.Packages
import Verif.Spec.Serde

/-! Specification of programs that import some of the lingo packages. -/

namespace Spec
open Go Ipod

/-- The number of a lingo (iAP specification). -/
def lingoOf : Pkg → UInt8
  | .general => 0x00
  | .simpleRemote => 0x02
  | .dispRemote => 0x03
  | .extRemote => 0x04
  | .audio => 0x0A

/-- The package a message is of. -/
def pkgOf : TypeId → Pkg
  | .gen _ => .general
  | .ext _ => .extRemote
  | .disp _ => .dispRemote
  | .aud _ => .audio
  | .sim _ => .simpleRemote

end Spec
