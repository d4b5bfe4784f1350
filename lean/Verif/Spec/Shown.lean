import Verif.Spec.Playback
import Verif.Spec.View
import Verif.Spec.Decode
import Verif.Lemmas.RealRegistry

/-!
# What `ipod view` makes of the packets in a frame
-/

namespace Spec
open Go Ipod Ipod.Hid Ipod.Trace

/-- The command is what is to be seen of a packet: its number; its transaction, if it has one; and what its body says, read as the
message of that number (`Decodes`), nothing if it does not say anything; the bytes if there is no such message. -/
def SeenAs (on : Bool) (packet : Bytes) (cmd : Command) : Prop :=
  match splitID packet with
  | none => cmd = ⟨0, none, .nil⟩
  | some (l, c, r) =>
    cmd.id = idOf l c ∧
    match hear (trxAfter l c on) (lengthsOf l c) r with
    | .unknown => cmd.trx = none ∧ cmd.payload = .unknown r
    | .garbled => cmd.payload = .nil
    | .message trx body =>
      cmd.trx = trx ∧ ∃ t : TypeId, t.lingo = l ∧ t.cmd = c ∧
        ((∃ v, cmd.payload = .ptr t v ∧ Decodes t body v) ∨ (cmd.payload = .nil ∧ ∀ v, ¬ Decodes t body v))

/-- One command for every packet; a packet can switch the transactions for itself and those after it. -/
def SeenAll : Bool → List Bytes → List Command → Prop
  | _, [], [] => True
  | on, p :: ps, c :: cs => SeenAs on p c ∧ SeenAll (trxThrough on [p]) ps cs
  | _, _, _ => False

/-- For every frame the commands in it; none for an error. -/
def SeenIn : Bool → List Shown → Prop
  | _, [] => True
  | on, e :: evs =>
    match e.frame with
    | .error _ => e.cmds = [] ∧ SeenIn on evs
    | .ok f => SeenAll on (packetsIn f) e.cmds ∧ SeenIn (trxThrough on (packetsIn f)) evs

end Spec
