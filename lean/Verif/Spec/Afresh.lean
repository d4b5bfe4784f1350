import Verif.Spec.Server

/-! Specification: devices and servers an accessory cannot tell apart. -/

namespace Spec
open Go Ipod

/-- Related devices answer every query alike and stay related whatever they are told; the certificate and the end of the
identification make no difference to what they answer. -/
structure Unseen {σ : Type} (D : Device σ) (R : σ → σ → Prop) : Prop where
  uiMode {d e} : R d e → D.uiMode d = D.uiMode e
  name {d e} : R d e → D.name d = D.name e
  softwareVersion {d e} : R d e → D.softwareVersion d = D.softwareVersion e
  serialNum {d e} : R d e → D.serialNum d = D.serialNum e
  lingoProtocolVersion {d e} : R d e → ∀ l, D.lingoProtocolVersion d l = D.lingoProtocolVersion e l
  lingoOptions {d e} : R d e → ∀ l, D.lingoOptions d l = D.lingoOptions e l
  prefSettingID {d e} : R d e → ∀ k, D.prefSettingID d k = D.prefSettingID e k
  eventNotificationMask {d e} : R d e → D.eventNotificationMask d = D.eventNotificationMask e
  supportedEventNotificationMask {d e} : R d e → D.supportedEventNotificationMask d = D.supportedEventNotificationMask e
  maxPayload {d e} : R d e → D.maxPayload d = D.maxPayload e
  setUIMode {d e} : R d e → ∀ m, R (D.setUIMode d m) (D.setUIMode e m)
  setPrefSettingID {d e} : R d e → ∀ k s b, R (D.setPrefSettingID d k s b) (D.setPrefSettingID e k s b)
  startIDPS {d e} : R d e → R (D.startIDPS d) (D.startIDPS e)
  endIDPS {d e} : R d e → ∀ s, R (D.endIDPS d s) (D.endIDPS e s)
  setToken {d e} : R d e → ∀ t, R (D.setToken d t) (D.setToken e t)
  accAuthCert {d e} : R d e → ∀ x y, R (D.accAuthCert d x) (D.accAuthCert e y)
  setEventNotificationMask {d e} : R d e → ∀ m, R (D.setEventNotificationMask d m) (D.setEventNotificationMask e m)
  cancelCommand {d e} : R d e → ∀ l c t, R (D.cancelCommand d l c t) (D.cancelCommand e l c t)

/-- From now on the two clocks, asked `a` and `b` times so far, show the same. -/
def SameTime (clock clock' : Clock) (a b : Nat) : Prop := ∀ n, clock (a + n) = clock' (b + n)

/-- Two servers an accessory cannot tell apart: same transaction mode and counter, related devices, same time. The tokens
and the certificate received so far may differ. -/
structure Twins {σ : Type} (R : σ → σ → Prop) (clock clock' : Clock) (s s' : Srv σ) : Prop where
  mode : s.mode = s'.mode
  dev : R s.ctx.dev s'.ctx.dev
  counter : s.ctx.counter = s'.ctx.counter
  time : SameTime clock clock' s.ctx.ticks s'.ctx.ticks

/-- Two sessions, seen from outside: both panic, or the same frames are written and the servers cannot be told apart afterwards
either. -/
def SameCourse {σ : Type} (R : σ → σ → Prop) (clock clock' : Clock) (x x' : Out (Srv σ × List Bytes)) : Prop :=
  (x = .panic ∧ x' = .panic) ∨
  ∃ s s' w, x = .ret (s, w) ∧ x' = .ret (s', w) ∧ Twins R clock clock' s s'

/-- The frame begins with a StartIDPS packet, with any transaction or none. -/
def BeginsWithStart (frame : Bytes) : Prop :=
  ∃ trx w rest, IsPacket ([0x00, 0x38] ++ transactionBytes trx) w ∧ frame = w ++ rest

/-- What is written, without the state of the server afterwards. -/
def written {σ : Type} (x : Out (Srv σ × List Bytes)) : Out (List Bytes) := x >>= fun y => .ret y.2

end Spec
