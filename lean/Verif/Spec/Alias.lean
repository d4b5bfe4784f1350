import Verif.Spec.Handlers

/-! Specification of what may change in decoded commands when the memory they were decoded from changes. -/

namespace Spec
open Go Ipod

/-- The lists have the same length and corresponding elements are related. -/
inductive Paired {α β : Type} (R : α → β → Prop) : List α → List β → Prop
  | nil : Paired R [] []
  | cons {a b as bs} : R a b → Paired R as bs → Paired R (a :: as) (b :: bs)

/-- The commands that go on pointing to the bytes they were decoded from: unknown ones with a body, and identification
tokens among which there is an EAProtocol token with a protocol string. -/
inductive PointsIntoFrame (c : Command) : Prop
  | unknown (b) : c.payload = .unknown b → b ≠ [] → PointsIntoFrame c
  | protocol (ts u t i s) : c.payload = .ptr (.gen .SetFIDTokenValues) (ts, u) → t ∈ ts → t.token = .eaProtocol i s →
      s ≠ [] → PointsIntoFrame c

/-- The tokens agree, except for the bytes (not the length) of EAProtocol strings. -/
def SameButString (a b : FIDTokenValue) : Prop :=
  a = b ∨ a.id = b.id ∧ ∃ i s s', a.token = .eaProtocol i s ∧ b.token = .eaProtocol i s' ∧ s.length = s'.length

end Spec
