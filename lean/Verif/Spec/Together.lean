import Verif.Model.Together
import Verif.Spec.Afresh
import Verif.Spec.Handlers

/-! Specification: accessories served side by side. -/

namespace Spec
open Go Ipod

/-- The same frame, or two frames with the same request of the iPod (GetDevAuthenticationInfo or GetAccSampleRateCaps) under two
numbers. -/
def SameButNumber (f g : Bytes) : Prop :=
  f = g ∨ ∃ q, (q = [0x00, 0x14] ∨ q = [0x0A, 0x02]) ∧ ∃ t t',
    IsPacket (q ++ transactionBytes (some t)) f ∧ IsPacket (q ++ transactionBytes (some t')) g

/-- One by one. -/
inductive FramesAlike : List Bytes → List Bytes → Prop
  | nil : FramesAlike [] []
  | cons {f g fs gs} : SameButNumber f g → FramesAlike fs gs → FramesAlike (f :: fs) (g :: gs)

/-- `n` requests having been made since the last StartIDPS, the further ones are numbered consecutively modulo 65536, beginning
anew after every StartIDPS, whoever sends it. -/
def Numbered : Nat → List (Nat × Command × List Command) → Prop
  | _, [] => True
  | n, (_, cmd, new) :: rest =>
    let n := if isStartIDPS cmd then 0 else n
    let own := new.filter fun x => DeviceOriginated cmd x
    own.map (·.trx) = (List.range own.length).map (fun k => some (UInt16.ofNat (n + k + 1))) ∧ Numbered (n + own.length) rest

/-- The sections of certificates, latest first, back to the latest first section; what they carry, in order. -/
def sinceFirst : List (UInt8 × UInt8 × Bytes) → Bytes
  | [] => []
  | (cur, _, data) :: earlier => if cur = 0 then data else sinceFirst earlier ++ data

/-- The certificates handed over for accessory `i`, when these commands have been handled, latest first: at each last section
from `i`, what all sections since the latest first section carry, whoever sent them. -/
def handed (i : Nat) : List (Nat × Command) → List Bytes
  | [] => []
  | (j, cmd) :: earlier =>
    handed i earlier ++
      (match certSection cmd with
      | some (cur, max, data) =>
        if j = i ∧ ¬ cur < max then
          [sinceFirst ((cur, max, data) :: earlier.filterMap fun x => certSection x.2)]
        else []
      | none => [])

/-- The frame carries the command: the packet of id, transaction (with transactions on) and payload, if that can be encoded and
has a length the packet writer can announce; nothing, if it cannot be encoded. -/
def CarriedBy (x : Command) (f : Bytes) : Prop :=
  ∃ on : Bool, (∀ body, PayloadBytes x.payload body →
      let p := idBytes (UInt8.ofNat (x.id.toNat / 65536)) (UInt16.ofNat x.id.toNat) ++
        (if on then transactionBytes x.trx else []) ++ body
      p.length ≤ 65535 → p.length ≠ 256 → IsPacket p f) ∧
    ((∀ body, ¬ PayloadBytes x.payload body) → f = [])

/-- One by one. -/
inductive EachCarried : List Command → List Bytes → Prop
  | nil : EachCarried [] []
  | cons {x f xs fs} : CarriedBy x f → EachCarried xs fs → EachCarried (x :: xs) (f :: fs)

/-- The answers to the commands handled for `i`, in order. -/
def answersFor (i : Nat) (log : List (Nat × Command × List Command)) : List Command :=
  log.flatMap fun x => if x.1 = i then x.2.2 else []

/-- The command does not concern what the accessories share: it neither starts nor ends the identification and carries no
certificate. -/
def Apart (cmd : Command) : Prop :=
  isStartIDPS cmd = false ∧ (∀ v, cmd.payload ≠ .ptr (.gen .EndIDPS) v) ∧ ∀ v, cmd.payload ≠ .ptr (.gen .RetDevAuthenticationInfo) v

/-- The loop has nothing left to do. -/
def Finished {σ : Type} (s : Together.Side σ) : Prop := s.todo = none ∧ s.reads = []

end Spec
