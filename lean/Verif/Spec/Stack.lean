import Verif.Spec.Replies
import Verif.Spec.Session
import Verif.Spec.Fits

/-! Vocabulary of property C95: an accessory built on the library talks to the server in commands. -/

namespace Spec
open Go Ipod

/-- Whether transactions are on after a command. -/
def onAfter (m : Bool) (cmd : Command) : Bool := (switchOfId cmd.id).getD m

/-- What the other end gets of a command: all of it, but the transaction only if transactions are on. -/
def asSeen (m : Bool) (cmd : Command) : Command := { cmd with trx := if onAfter m cmd then cmd.trx else none }

/-- The command is encoded by an end in mode `m`, and decoded by another end in mode `m` as the command it was. -/
def Survives (m : Bool) (cmd : Command) : Prop :=
  ∃ p, marshalCmd m cmd = (onAfter m cmd, .ok p) ∧ unmarshalCmd m p = .ret (onAfter m cmd, asSeen m cmd, none)

/-- The messages the library can carry from one end to the other: messages of fixed size, and those of variable size whose
encoder and decoder agree. With transactions on there is a transaction. -/
inductive Faithful (m : Bool) : Command → Prop
  | fixed {t id n v trx} : registry.lookupID t = some id → FixedSize t.schema n → t ≠ .gen .ACKDataDropped →
      Faithful m ⟨id, trx, .ptr t v⟩
  | var {t id v trx} : registry.lookupID t = some id → VarOK t v → ¬ IsTrackText t v → (m = true → trx.isSome = true) →
      Faithful m ⟨id, trx, .ptr t v⟩

/-- The requests whose answer the accessory cannot read as it was meant: those whose answer cannot be encoded, display-remote
track infos with text (types 1 to 7), and extended-remote track infos of types other than 0, 3, 4. -/
inductive Garbled (req : Command) : Prop
  | unsendable : Unsendable req → Garbled req
  | text (ty v) : req.payload = .ptr (.disp .GetIndexedPlayingTrackInfo) (ty, v) → 1 ≤ UInt8.toNat ty → ty.toNat ≤ 7 →
      Garbled req
  | info (ty v) : req.payload = .ptr (.ext .GetIndexedPlayingTrackInfo) (ty, v) → ty ∉ [(0x00 : UInt8), 0x03, 0x04] →
      Garbled req

/-- A dialogue in terms of commands only, no packets: the requests are handled one after another; each comes with the answers
of the device. -/
inductive Dialogue {σ : Type} (D : Device σ) (clock : Clock) : Srv σ → List (Command × List Command) → Srv σ → Prop
  | nil {s} : Dialogue D clock s [] s
  | cons {m ctx c s' cmd new talk} : Handles D clock (asSeen m cmd) { ctx with out := [] } c new →
      Dialogue D clock ⟨onAfter m cmd, { c with out := [] }⟩ talk s' →
      Dialogue D clock ⟨m, ctx⟩ ((cmd, new) :: talk) s'

/-- The requests an accessory in mode `m` may make, one after another: the library can carry them, they have a transaction when
transactions are on, their packet can be sent, and their answer can be read and sent. -/
inductive GoodRequests : Bool → List Command → Prop
  | nil {m} : GoodRequests m []
  | cons {m cmd cmds} : Faithful m cmd → (onAfter m cmd = true → cmd.trx.isSome = true) →
      (∀ m' p, marshalCmd m cmd = (m', .ok p) → Sendable p) → ¬ Garbled cmd →
      (∀ ts u, cmd.payload = .ptr (.gen .SetFIDTokenValues) (ts, u) → ackPacketLength (if m then cmd.trx else none) ts ≠ 256) →
      GoodRequests (onAfter m cmd) cmds → GoodRequests m (cmd :: cmds)

/-- The packets are decoded one after another, without error. -/
inductive Reads : Bool → List Bytes → Bool → List Command → Prop
  | nil {m} : Reads m [] m []
  | cons {m m' m'' p ps cmd cmds} : unmarshalCmd m p = .ret (m', cmd, none) → Reads m' ps m'' cmds →
      Reads m (p :: ps) m'' (cmd :: cmds)

/-- `Accessory m talk xs`: an accessory in mode `m` makes the requests of `talk` and sees the answers of `talk` if the packets
of `xs` are exchanged: each request is encoded, then its answers are decoded. -/
inductive Accessory : Bool → List (Command × List Command) → List (Bytes × List Bytes) → Prop
  | nil {m} : Accessory m [] []
  | cons {m m1 m2 cmd seen talk p answers xs} : marshalCmd m cmd = (m1, .ok p) → Reads m1 answers m2 seen →
      Accessory m2 talk xs → Accessory m ((cmd, seen) :: talk) ((p, answers) :: xs)

/-- What the accessory sees of a dialogue that begins in mode `m`. -/
def seenBy : Bool → List (Command × List Command) → List (Command × List Command)
  | _, [] => []
  | m, (cmd, new) :: talk => (cmd, new.map (asSeen (onAfter m cmd))) :: seenBy (onAfter m cmd) talk

end Spec
