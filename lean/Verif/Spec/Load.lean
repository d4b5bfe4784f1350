import Verif.Spec.Server

/-! Specification: how much is sent and kept. -/

namespace Spec
open Go Ipod

/-- Bytes in all. -/
def total (l : List Bytes) : Nat := (l.map List.length).sum

/-- The frames that were read. -/
def framesRead (reads : List (Except Err Slice)) : List Bytes := reads.filterMap fun r => r.toOption.map (·.data)

/-- What the server keeps between frames: bytes of a certificate and tokens. -/
def kept (s : Srv DevGeneral) : Nat := s.ctx.certBuf.length + s.ctx.dev.tokens.length

end Spec
