import Verif.Model.Log

/-! Model of the lines logged by the emulated iPod itself (cmd/ipod/general.go:103-152). -/

namespace Ipod.Log
open Go

/-- `%T` of a token (general.go:109); nil is `<nil>`. -/
def tokenTypeText : FIDToken → Bytes
  | .nil => ascii "<nil>"
  | .identify _ _ _ => ascii "*general.FIDIdentifyToken"
  | .accCaps _ => ascii "*general.FIDAccCapsToken"
  | .accInfo _ _ => ascii "*general.FIDAccInfoToken"
  | .ipodPref _ _ _ => ascii "*general.FIDiPodPreferenceToken"
  | .eaProtocol _ _ => ascii "*general.FIDEAProtocolToken"
  | .bundleSeed _ => ascii "*general.FIDBundleSeedIDPrefToken"
  | .screenInfo _ _ _ _ _ _ _ _ => ascii "*general.FIDScreenInfoToken"
  | .eaMetadata _ _ => ascii "*general.FIDEAProtocolMetadataToken"
  | .micCaps _ => ascii "*general.FIDMicrophoneCapsToken"
  | .raw _ => ascii "[]uint8"

/-- lingo-general/general.go:485-489 `AccCaps`. -/
def accCaps : List UInt32 := [1, 2, 4, 16, 512, 2048]

/-- cmd/ipod/general.go:115-119: the loop over `AccCaps`. -/
def capsText (mask : UInt64) : List UInt32 → Bytes
  | [] => []
  | c :: cs =>
    (if mask &&& c.toUInt64 ≠ 0 then ascii "Capability: " ++ accCapBitString c ++ [0x0A] else []) ++ capsText mask cs

/-- cmd/ipod/general.go:107-137, one round of the loop; `dump` is `spew.Sdump`. -/
def tokenText (dump : Option Bytes → Bytes) (t : FIDToken) : Bytes :=
  ascii "* Token: " ++ tokenTypeText t ++ [0x0A] ++
  match t with
  | .accCaps mask => capsText mask accCaps
  | .accInfo ty value => accInfoTypeString ty ++ ascii ": " ++ dump value ++ [0x0A]
  | _ => []

/-- cmd/ipod/general.go:103-139 `EndIDPS`: what is logged (`log.Print` logs at the info level). -/
def endIDPSText (dump : Option Bytes → Bytes) (tokens : List FIDTokenValue) : Bytes :=
  tokens.foldl (fun buf t => buf ++ tokenText dump t.token) (ascii "Tokens:" ++ [0x0A])

/-- cmd/ipod/general.go:141-152 `AccAuthCert`: what is logged. `pkcs` stands for `pkcs7.Parse`: the text of its error, or the
common name of the first certificate, if there is one. -/
def certLines (pkcs : Bytes → Except Bytes (Option Bytes)) (cert : Bytes) : List Line :=
  match pkcs cert with
  | .error text => [⟨errorLevel, text, []⟩]
  | .ok (some cn) => [⟨infoLevel, ascii "cert: CN=" ++ cn, []⟩]
  | .ok none => []

/-- The lines logged while `HandleGeneral` runs with `DevGeneral`: those of `EndIDPS` (called at lingo-general/handler.go:220)
and of `AccAuthCert` (called at handler.go:154 with the buffer filled at 145-149). -/
def deviceLines (dump : Option Bytes → Bytes) (pkcs : Bytes → Except Bytes (Option Bytes)) (cmd : Command) (c : Ctx DevGeneral) : List Line :=
  match cmd.payload with
  | .ptr (.gen .EndIDPS) _ => [⟨infoLevel, endIDPSText dump c.dev.tokens, []⟩]
  | .ptr (.gen .RetDevAuthenticationInfo) (major, _, cur, max, data, _) =>
    if major ≥ 2 then
      if cur < max then [] else certLines pkcs ((if cur = 0 then [] else c.certBuf) ++ data)
    else []
  | _ => []

end Ipod.Log
