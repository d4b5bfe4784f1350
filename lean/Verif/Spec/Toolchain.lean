import Verif.Spec.Server

/-! Specification: packets in which the decoder comes to a token of unknown kind. -/

namespace Spec
open Go Ipod

/-- Among the first `n` length-delimited tokens of `r`, after accepted tokens only, there is one of a kind the library does
not know. -/
inductive UnknownComing : Nat → Bytes → Prop
  | here {n len r a b body} : r.take (UInt8.toNat len) = a :: b :: body → ¬ knownTokenID ⟨a, b⟩ → UnknownComing (n + 1) (len :: r)
  | later {n len r} : TokenAccepted (r.take (UInt8.toNat len)) → UnknownComing n (r.drop len.toNat) →
      UnknownComing (n + 1) (len :: r)

/-- SetFIDTokenValues with such a token; the transaction counts iff transactions are on. -/
def UnknownKind (m : Bool) (pkt : Bytes) : Prop :=
  ∃ trx n r, trx.length = (if m then 2 else 0) ∧ pkt = [0x00, 0x39] ++ trx ++ (n :: r) ∧ UnknownComing (UInt8.toNat n) r

/-- A packet the decoder of an older release cannot survive. -/
def OldFatal (m : Bool) (pkt : Bytes) : Prop := Malformed m pkt ∨ UnknownKind m pkt

/-- The session comes, before any `io.EOF`, to a frame that overruns or in which there is a packet `Bad` in the mode then in
force. `run` tells the state of the server after the reads before it. -/
def ComesTo {σ : Type} (Bad : Bool → Bytes → Prop) (run : List (Except Err Slice) → Srv σ → Out (Srv σ × List Bytes))
    (reads : List (Except Err Slice)) (s : Srv σ) : Prop :=
  ∃ pre f rest s1 w ps b, reads = pre ++ .ok f :: rest ∧ .error .eof ∉ pre ∧ run pre s = .ret (s1, w) ∧
    Scan f.spare f.data ps b ∧
    (b = true ∨ ∃ ps1 p ps2, ps = ps1 ++ p :: ps2 ∧ Bad (modeAfter s1.mode (ps1.map .receive)) p)

end Spec
