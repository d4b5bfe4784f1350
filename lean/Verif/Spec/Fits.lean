import Verif.Model.Codecs

/-! Vocabulary of property C80: how long the acknowledgement of the tokens of an accessory is. -/

namespace Spec
open Go Ipod

/-- Bytes of the acknowledgement of one token: length, kind (two), status, and for tokens which come in several instances the
number of the instance. -/
def ackWidth (t : FIDTokenValue) : Nat :=
  match t.token with
  | .accInfo _ _ | .ipodPref _ _ _ | .eaProtocol _ _ => 5
  | _ => 4

/-- Bytes of the packet acknowledging the tokens: lingo, command, transaction if there is one, number of tokens, tokens. -/
def ackPacketLength (sent : Option UInt16) (ts : List FIDTokenValue) : Nat :=
  2 + (if sent.isSome then 2 else 0) + 1 + (ts.map ackWidth).sum

end Spec
