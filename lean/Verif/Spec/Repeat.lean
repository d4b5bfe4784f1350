import Verif.Spec.Server

/-! Vocabulary of property C96: a request made twice. -/

namespace Spec
open Go Ipod

/-- The same state of the server, apart from how often it asked for the time and what it has to send. -/
def SameState (c c' : Ctx DevGeneral) : Prop := c.dev = c'.dev ∧ c.certBuf = c'.certBuf ∧ c.counter = c'.counter

/-- The requests that have an effect every time they are made: tokens are added to those there, a section of a certificate other
than the first is appended to what is there, and at the end of the certificate and of the identification the device makes requests
of its own, with new transactions. -/
inductive Accumulates (cmd : Command) : Prop
  | tokens (ts u) : cmd.payload = .ptr (.gen .SetFIDTokenValues) (ts, u) → ts ≠ [] → Accumulates cmd
  | part (major minor cur max data u) : cmd.payload = .ptr (.gen .RetDevAuthenticationInfo) (major, minor, cur, max, data, u) →
      2 ≤ UInt8.toNat major → cur ≠ 0 → data ≠ [] → Accumulates cmd
  | complete (major minor cur max data u) : cmd.payload = .ptr (.gen .RetDevAuthenticationInfo) (major, minor, cur, max, data, u) →
      UInt8.toNat major < 2 ∨ UInt8.toNat max ≤ UInt8.toNat cur → Accumulates cmd
  | identified (u) : cmd.payload = .ptr (.gen .EndIDPS) (0x00, u) → Accumulates cmd

/-- The requests that are answered differently the second time: changes of the UI mode (first "pending", then "success"; the second
time only "success"), those after which the device makes requests of its own, and the question for the time if it has passed. -/
inductive AnsweredAnew (clock : Clock) (c : Ctx DevGeneral) (cmd : Command) : Prop
  | enter (v) : cmd.payload = .ptr (.gen .EnterRemoteUIMode) v → c.dev.uimode ≠ 1 → AnsweredAnew clock c cmd
  | exit (v) : cmd.payload = .ptr (.gen .ExitRemoteUIMode) v → c.dev.uimode = 1 → AnsweredAnew clock c cmd
  | complete (major minor cur max data u) : cmd.payload = .ptr (.gen .RetDevAuthenticationInfo) (major, minor, cur, max, data, u) →
      UInt8.toNat major < 2 ∨ UInt8.toNat max ≤ UInt8.toNat cur → AnsweredAnew clock c cmd
  | identified (u) : cmd.payload = .ptr (.gen .EndIDPS) (0x00, u) → AnsweredAnew clock c cmd
  | time (u) : cmd.payload = .ptr (.disp .GetiPodStateInfo) (0x09, u) → clock c.ticks ≠ clock (c.ticks + 1) →
      AnsweredAnew clock c cmd

end Spec
