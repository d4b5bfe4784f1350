import Verif.Spec.Server

/-! Specification of a session at the level of packets: no frames, no reports, no bytes in between. -/

namespace Spec
open Go Ipod

/-- `Conversation D clock s batches s' replies`: the server in state `s` is given the packets of `batches`, batch after
batch. The packets of a batch are decoded first, then the commands are handled, then the answers are encoded; it ends in
state `s'`, having encoded `replies`. -/
inductive Conversation {σ : Type} (D : Device σ) (clock : Clock) :
    Srv σ → List (List Bytes) → Srv σ → List (Except Err Bytes) → Prop
  | nil {s} : Conversation D clock s [] s []
  | cons {s s' ps batches m m' cmds c news rs rs'} : Decoded s.mode ps m cmds →
      HandledEach D clock cmds { s.ctx with out := [] } c news → Encoded m news.flatten m' rs →
      Conversation D clock ⟨m', { c with out := [] }⟩ batches s' rs' →
      Conversation D clock s (ps :: batches) s' (rs ++ rs')

/-- The packet writer can carry it: 1 to 65535 bytes, and not 256. -/
def Sendable (p : Bytes) : Prop := 1 ≤ p.length ∧ p.length ≤ 65535 ∧ p.length ≠ 256

end Spec
