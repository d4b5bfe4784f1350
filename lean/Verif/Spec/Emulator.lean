import Verif.Spec.Protocol
import Verif.Spec.Server

/-!
# Specification of the emulated iPod as a whole, on bytes

What the iPod of `cmd/ipod` does with any packet whatever, written as one function from bytes to bytes, with its own state and
without the message types, the codecs, the registry and the handlers of the model. The only thing shared is the table of the
lengths of the messages (`wireTable`).
-/

namespace Spec
open Go Ipod

/-- All there is to know about the iPod: are transactions on, the user interface mode, the number of the last request it made
of its own accord, and how often it looked at the clock. -/
structure Pod where
  trx : Bool
  ui : UInt8
  asked : UInt16
  looks : Nat
deriving DecidableEq

/-- Switched on. -/
def Pod.new : Pod := ⟨false, 0x00, 0, 0⟩

/-- Something the iPod says: lingo, command, transaction and body; `none` if it is not able to write the body. -/
structure Say where
  lingo : UInt8
  cmd : UInt16
  trx : Option UInt16
  body : Option Bytes
deriving DecidableEq

/-- The packet, with or without transactions. -/
def Say.packet (on : Bool) (s : Say) : Option Bytes :=
  s.body.map fun b => idBytes s.lingo s.cmd ++ (if on then transactionBytes s.trx else []) ++ b

/-! ### hearing -/

/-- Lingo, command and the rest of a packet. -/
def splitID : Bytes → Option (UInt8 × UInt16 × Bytes)
  | 0x04 :: a :: b :: r => some (0x04, UInt16.ofNat (a.toNat * 256 + b.toNat), r)
  | l :: a :: r => if l = 0x04 then none else some (l, UInt16.ofNat a.toNat, r)
  | _ => none

/-- Requesting the identification and identifying without identification procedure switch transactions off, StartIDPS switches
them on. -/
def trxAfter (l : UInt8) (c : UInt16) (on : Bool) : Bool :=
  if l = 0x00 ∧ (c = 0x00 ∨ c = 0x13) then false else if l = 0x00 ∧ c = 0x38 then true else on

/-- The lengths of the bodies of the messages with this number (`none`: not fixed). -/
def lengthsOf (l : UInt8) (c : UInt16) : List (Option Nat) :=
  (wireTable.filter fun r => r.lingo = l ∧ r.cmd = c).map fun r => r.fields.map wireSize

/-- What the iPod makes of the bytes behind the number. -/
inductive Hearing where
  | unknown
  | garbled
  | message (trx : Option UInt16) (body : Bytes)
deriving DecidableEq

/-- Two bytes of transaction, then the body. -/
def splitTrx : Bytes → Option (Option UInt16 × Bytes)
  | a :: b :: r => some (some (UInt16.ofNat (a.toNat * 256 + b.toNat)), r)
  | _ => none

/-- The body: exactly `n` bytes, what is behind them does not matter; all the rest if the length is not fixed. -/
def cutBody : Option Nat → Bytes → Option Bytes
  | none, r => some r
  | some n, r => if r.length < n then none else some (r.take n)

/-- Is the rest of the packet as long as a message with a body of this length, without or with a transaction? -/
def fitsLength (r : Bytes) (s : Option Nat) : Bool := s = some r.length ∨ s.map (· + 2) = some r.length

/-- The first message of fitting length decides whether there is a transaction; if none fits, the only message with this number
is taken, with a transaction if they are on. -/
def hear (on : Bool) (lengths : List (Option Nat)) (r : Bytes) : Hearing :=
  match lengths.find? (fitsLength r) with
  | some s =>
    if s = some r.length then .message none r
    else match splitTrx r with
      | some (t, b) => .message t b
      | none => .garbled
  | none =>
    match lengths with
    | [s] =>
      match (if on then splitTrx r else some (none, r)) with
      | none => .garbled
      | some (t, b) =>
        match cutBody s b with
        | none => .garbled
        | some b => .message t b
    | _ => .unknown

/-! ### answering -/

/-- What the iPod does upon a message: its state and what it says, or `none` if it dies. Given: the iPod, the time, transaction
and body of the message. -/
abbrev Reaction := Pod → Time → Option UInt16 → Bytes → Option (Pod × List Say)

/-- It says one thing, under the transaction of the message. -/
def says (l : UInt8) (c : UInt16) (f : Pod → Bytes → Bytes) : Reaction :=
  fun p _ t b => some (p, [⟨l, c, t, some (f p b)⟩])

/-- It says always the same. -/
def saysJust (l : UInt8) (c : UInt16) (body : Bytes) : Reaction := says l c fun _ _ => body

/-- It tries to say something it is not able to write. -/
def failsToSay (l : UInt8) (c : UInt16) : Reaction := fun p _ t _ => some (p, [⟨l, c, t, none⟩])

/-- General, Display Remote, Extended Remote: acknowledgement of command `c` with this status. -/
def acks (status c : UInt8) : Reaction := saysJust 0x00 0x02 [status, c]
def dispAcks (c : UInt8) : Reaction := saysJust 0x03 0x00 [0x00, c]
def extAcks (status c : UInt8) : Reaction := saysJust 0x04 0x01 [status, 0x00, c]

/-- Entering or leaving the extended interface mode: nothing to do, or an announcement (300 ms), then done. -/
def turnsUI (c : UInt8) (mode : UInt8) (done : UInt8 → Bool) : Reaction := fun p _ t _ =>
  if done p.ui then some (p, [⟨0x00, 0x02, t, some [0x00, c]⟩])
  else some ({ p with ui := mode },
    [⟨0x00, 0x02, t, some [0x06, c, 0x00, 0x00, 0x01, 0x2C]⟩, ⟨0x00, 0x02, t, some [0x00, c]⟩])

/-- The version of a lingo. -/
def podVersion (l : UInt8) : Bytes :=
  if l = 0x00 then [1, 9] else if l = 0x03 then [1, 5] else if l = 0x04 then [1, 12] else if l = 0x0A then [1, 2] else [1, 1]

/-- The options of a lingo. -/
def podOptions (l : UInt8) : Bytes :=
  if l = 0x00 then [0x00, 0x00, 0x00, 0x06, 0x3D, 0xEF, 0x73, 0xFF] else [0, 0, 0, 0, 0, 0, 0, 0]

/-- Identification without procedure: an accessory with a device id is asked for its certificate. -/
def identifies : Reaction := fun p _ t b =>
  some (p, ⟨0x00, 0x02, t, some [0x00, 0x13]⟩ ::
    if (b.drop 8).all (· == 0) then [] else [⟨0x00, 0x14, t, some []⟩])

/-- The certificate: sections are acknowledged; with the last one the iPod asks for the sample rates (its own request), accepts
the certificate and asks for a signature. Old versions come without certificate. -/
def certified : Reaction := fun p _ t b =>
  let asks : Say := ⟨0x0A, 0x02, some (p.asked + 1), some []⟩
  let p' := { p with asked := p.asked + 1 }
  match b with
  | major :: _ :: r =>
    if major.toNat < 2 then some (p', [asks, ⟨0x00, 0x16, t, some [0x00]⟩])
    else match r with
      | cur :: max :: _ =>
        if cur.toNat < max.toNat then some (p, [⟨0x00, 0x02, t, some [0x00, 0x15]⟩])
        else some (p', [asks, ⟨0x00, 0x16, t, some [0x00]⟩, ⟨0x00, 0x17, t, some (List.replicate 21 0)⟩])
      | _ => some (p, [])
  | _ => some (p, [])

/-- What a token comes to: the iPod dies, does not understand it, or acknowledges it with these bytes, if it can. -/
inductive TokenFate where
  | dies
  | bad
  | acked (body : Option Bytes)
deriving DecidableEq

/-- A token acknowledged if it has at least `n` bytes. -/
def ackedFrom (n : Nat) (b : Bytes) : TokenFate := if b.length < n then .bad else .acked (some [0x00])

/-- The token with the id `x`, `y` and the body `b`. -/
def tokenFate (x y : UInt8) (b : Bytes) : TokenFate :=
  if x = 0x01 then ackedFrom 4 b
  else if x ≠ 0x00 then .acked none
  else if y = 0x00 then ackedFrom 1 b
  else if y = 0x01 then .acked (some [0x00])
  else if y = 0x02 then
    match b with
    | k :: _ => if k ∈ [(0x01 : UInt8), 0x04, 0x05, 0x06, 0x07, 0x08, 0x09, 0x0B, 0x0C] then .acked (some [0x00, k]) else .bad
    | [] => .bad
  else if y = 0x03 then
    match b with
    | cls :: _ :: _ :: _ => .acked (some [0x00, cls])
    | _ => .bad
  else if y = 0x04 then
    match b with
    | i :: _ => .acked (some [0x00, i])
    | [] => .dies
  else if y = 0x05 then ackedFrom 11 b
  else if y = 0x07 then ackedFrom 14 b
  else if y = 0x08 then ackedFrom 2 b
  else .acked none

/-- The tokens: the iPod dies (`none`), does not understand them (`some none`), or understands them all: the
acknowledgements it writes, `none` if it is not able to. -/
def tokenFates : Nat → Bytes → Option (Option (Option Bytes))
  | 0, _ => some (some (some []))
  | _ + 1, [] => some none
  | n + 1, len :: r =>
    match r.take len.toNat with
    | x :: y :: b =>
      match tokenFate x y b with
      | .dies => none
      | .bad => some none
      | .acked a =>
        match tokenFates n (r.drop len.toNat) with
        | some (some more) => some (some (a.bind fun a => more.map fun more => UInt8.ofNat (a.length + 2) :: x :: y :: a ++ more))
        | other => other
    | _ => some none

/-- The identification tokens. -/
def takesTokens : Reaction := fun p _ t b =>
  match b with
  | [] => some (p, [])
  | n :: r =>
    match tokenFates n.toNat r with
    | none => none
    | some none => some (p, [])
    | some (some a) => some (p, [⟨0x00, 0x3A, t, a.map (n :: ·)⟩])

/-- The end of the identification: if it went well, the iPod asks (its own request) for the certificate. -/
def endsIDPS : Reaction := fun p _ t b =>
  match b with
  | [0x00] => some ({ p with asked := p.asked + 1 }, [⟨0x00, 0x3C, t, some [0x00]⟩, ⟨0x00, 0x14, some (p.asked + 1), some []⟩])
  | [0x01] => some (p, [⟨0x00, 0x3C, t, some [0x04]⟩])
  | [0x02] => some (p, [⟨0x00, 0x3C, t, some [0x06]⟩])
  | _ => some (p, [])

/-- A request to launch an application: refused; the iPod dies of a short one. -/
def launches : Reaction := fun p n t b => if b.length < 3 then none else acks 0x02 0x64 p n t b

/-- The state infos of Display Remote. -/
def stateInfo (now : Time) (ty : UInt8) : Option Bytes :=
  if ty = 0x00 then some [0, 0, 0, 0]
  else if ty = 0x01 then some [0, 0, 0, 1]
  else if ty = 0x02 then some [0, 0, 0, 0, 0, 0, 0, 0]
  else if ty = 0x03 then some [0x01]
  else if ty = 0x04 then some [0x00, 0xFF]
  else if ty = 0x05 then some [0x05, 0xFF]
  else if ty = 0x06 then some [0, 0, 0, 0]
  else if ty = 0x07 then some [0x00]
  else if ty = 0x08 then some [0x00]
  else if ty = 0x09 then
    some [UInt8.ofNat (now.year.toNat / 256), UInt8.ofNat (now.year.toNat % 256), now.month, now.day, now.hour, now.minute]
  else if ty = 0x0B then some [0xFF]
  else if ty = 0x0C then some [0x00]
  else if ty = 0x0D then some [0x00]
  else if ty = 0x0E then some [0x00]
  else if ty = 0x0F then some [0, 0]
  else if ty = 0x10 then some [0x00, 0xFF, 0xFF]
  else none

/-- Asked for a state info; the clock is looked at for the time only. -/
def tellsState : Reaction := fun p now t b =>
  match b with
  | [ty] =>
    match stateInfo now ty with
    | some info => some ({ p with looks := p.looks + if ty = 0x09 then 1 else 0 }, [⟨0x03, 0x0D, t, some (ty :: info)⟩])
    | none => some (p, [])
  | _ => some (p, [])

/-- Asked by Display Remote for a track info: the texts are lost. -/
def tellsTrack : Reaction := fun p _ t b =>
  match b with
  | ty :: _ =>
    if ty = 0x00 then some (p, [⟨0x03, 0x13, t, some [0x00, 0, 0, 0, 0, 0x00, 0x04, 0x93, 0xE0, 0, 0]⟩])
    else if ty.toNat ≤ 7 then some (p, [⟨0x03, 0x13, t, some [ty]⟩])
    else if ty = 0x08 then some (p, [⟨0x03, 0x13, t, some [0x08, 0x08]⟩])
    else some (p, [])
  | _ => some (p, [])

/-- The track infos of Extended Remote. -/
def extTrack (b : Bytes) : Bytes :=
  b.take 1 ++
    if b.take 1 = [0x00] then [0, 0, 0, 0, 0x00, 0x04, 0x93, 0xE0, 0x00, 0x01]
    else if b.take 1 = [0x03] ∨ b.take 1 = [0x04] then [0, 0, 0, 0]
    else if b.take 1 = [0x07] then []
    else [0x00]

/-- All messages the iPod reacts to. -/
def reactions : List ((UInt8 × UInt16) × Reaction) := [
  -- General
  ((0x00, 0x03), says 0x00 0x04 fun p _ => [if p.ui = 0x01 then 0x01 else 0x00]),
  ((0x00, 0x05), turnsUI 0x05 0x01 (· == 0x01)),
  ((0x00, 0x06), turnsUI 0x06 0x00 (· != 0x01)),
  ((0x00, 0x07), saysJust 0x00 0x08 [0x69, 0x70, 0x6F, 0x64, 0x2D, 0x67, 0x61, 0x64, 0x67, 0x65, 0x74, 0x00]),
  ((0x00, 0x09), saysJust 0x00 0x0A [7, 1, 2]),
  ((0x00, 0x0B), saysJust 0x00 0x0C [0x61, 0x62, 0x63, 0x64, 0x31, 0x32, 0x33, 0x34, 0x00]),
  ((0x00, 0x0D), saysJust 0x00 0x0E [0x00, 0x11, 0x13, 0x49, 0x4D, 0x43, 0x36, 0x37, 0x36, 0x00]),
  ((0x00, 0x0F), says 0x00 0x10 fun _ b => b ++ podVersion (b.headD 0)),
  ((0x00, 0x11), saysJust 0x00 0x12 [0xFF, 0xFF]),
  ((0x00, 0x13), identifies),
  ((0x00, 0x15), certified),
  ((0x00, 0x18), saysJust 0x00 0x19 [0x00]),
  ((0x00, 0x1A), failsToSay 0x00 0x1B),
  ((0x00, 0x1D), says 0x00 0x1E fun _ b => b.take 20),
  ((0x00, 0x24), saysJust 0x00 0x25 [0, 0, 0, 0, 0, 0, 0, 0]),
  ((0x00, 0x29), says 0x00 0x2A fun _ b => b ++ [0x00]),
  ((0x00, 0x2B), acks 0x00 0x2B),
  ((0x00, 0x35), says 0x00 0x36 fun p _ => [p.ui]),
  ((0x00, 0x37), acks 0x00 0x37),
  ((0x00, 0x38), fun p n t b => acks 0x00 0x38 { p with asked := 0 } n t b),
  ((0x00, 0x39), takesTokens),
  ((0x00, 0x3B), endsIDPS),
  ((0x00, 0x49), acks 0x00 0x49),
  ((0x00, 0x4B), says 0x00 0x4C fun _ b => b ++ podOptions (b.headD 0)),
  ((0x00, 0x4D), saysJust 0x00 0x4E [0, 0, 0, 0, 0, 0, 0, 0]),
  ((0x00, 0x4F), saysJust 0x00 0x51 [0, 0, 0, 0, 0, 0, 0, 0]),
  ((0x00, 0x50), acks 0x00 0x50),
  ((0x00, 0x64), launches),
  ((0x00, 0x65), failsToSay 0x00 0x66),
  -- Display Remote
  ((0x03, 0x01), saysJust 0x03 0x02 [0, 0, 0, 0]),
  ((0x03, 0x03), dispAcks 0x03),
  ((0x03, 0x04), saysJust 0x03 0x05 [0, 0, 0, 1]),
  ((0x03, 0x06), failsToSay 0x03 0x07),
  ((0x03, 0x08), dispAcks 0x08),
  ((0x03, 0x0A), saysJust 0x03 0x0B [0, 0, 0, 0]),
  ((0x03, 0x0C), tellsState),
  ((0x03, 0x0E), dispAcks 0x0E),
  ((0x03, 0x0F), saysJust 0x03 0x10 (List.replicate 13 0)),
  ((0x03, 0x11), dispAcks 0x11),
  ((0x03, 0x12), tellsTrack),
  ((0x03, 0x14), saysJust 0x03 0x15 [0, 0, 0, 0]),
  ((0x03, 0x16), failsToSay 0x03 0x17),
  ((0x03, 0x1A), saysJust 0x03 0x1B [0x01, 0xFF]),
  ((0x03, 0x1C), saysJust 0x03 0x1D [0x00]),
  ((0x03, 0x1E), dispAcks 0x1E),
  ((0x03, 0x1F), failsToSay 0x03 0x20),
  -- Extended Remote
  ((0x04, 0x02), saysJust 0x04 0x03 [0, 0, 0, 0, 0, 0, 0, 1]),
  ((0x04, 0x04), extAcks 0x00 0x04),
  ((0x04, 0x05), saysJust 0x04 0x06 [0, 0, 0, 0, 0, 0, 0, 0]),
  ((0x04, 0x07), failsToSay 0x04 0x08),
  ((0x04, 0x09), saysJust 0x04 0x0A [0x00]),
  ((0x04, 0x0B), extAcks 0x00 0x0B),
  ((0x04, 0x0C), says 0x04 0x0D fun _ b => extTrack b),
  ((0x04, 0x0E), saysJust 0x04 0x0F []),
  ((0x04, 0x10), extAcks 0x02 0x10),
  ((0x04, 0x16), extAcks 0x00 0x16),
  ((0x04, 0x17), extAcks 0x00 0x17),
  ((0x04, 0x18), saysJust 0x04 0x19 [0, 0, 0, 1]),
  ((0x04, 0x1A), saysJust 0x04 0x1B (List.replicate 20 0)),
  ((0x04, 0x1C), saysJust 0x04 0x1D [0x00, 0x04, 0x93, 0xE0, 0x00, 0x00, 0x4E, 0x20, 0x02]),
  ((0x04, 0x1E), saysJust 0x04 0x1F [0, 0, 0, 0]),
  ((0x04, 0x20), saysJust 0x04 0x21 [0x74, 0x69, 0x74, 0x6C, 0x65, 0x00]),
  ((0x04, 0x22), saysJust 0x04 0x23 [0x61, 0x72, 0x74, 0x69, 0x73, 0x74, 0x00]),
  ((0x04, 0x24), saysJust 0x04 0x25 [0x61, 0x6C, 0x62, 0x75, 0x6D, 0x00]),
  ((0x04, 0x26), extAcks 0x00 0x26),
  ((0x04, 0x28), extAcks 0x00 0x28),
  ((0x04, 0x29), extAcks 0x00 0x29),
  ((0x04, 0x2A), saysJust 0x04 0x2B []),
  ((0x04, 0x2C), saysJust 0x04 0x2D [0x00]),
  ((0x04, 0x2E), extAcks 0x00 0x2E),
  ((0x04, 0x2F), saysJust 0x04 0x30 [0x00]),
  ((0x04, 0x31), extAcks 0x00 0x31),
  ((0x04, 0x32), extAcks 0x00 0x32),
  ((0x04, 0x33), saysJust 0x04 0x34 [0x02, 0x80, 0x03, 0xC0, 0x01]),
  ((0x04, 0x35), saysJust 0x04 0x36 [0, 0, 0, 1]),
  ((0x04, 0x39), saysJust 0x04 0x3A [0x02, 0x80, 0x03, 0xC0, 0x01]),
  ((0x04, 0x3B), extAcks 0x02 0x3B),
  -- Digital Audio: 44100 Hz, no correction, no video delay
  ((0x0A, 0x03), saysJust 0x0A 0x04 [0x00, 0x00, 0xAC, 0x44, 0, 0, 0, 0, 0, 0, 0, 0])]

/-- The reaction to the message with this number: nothing, if it is not in the list. -/
def reactionTo (l : UInt8) (c : UInt16) : Reaction :=
  match reactions.lookup (l, c) with
  | some f => f
  | none => fun p _ _ _ => some (p, [])

/-- What the iPod does upon a packet. Of what it does not know, only General is answered, by the acknowledgement "unknown
command" without transaction; what is garbled is not answered. -/
def Pod.hears (clock : Clock) (p : Pod) (packet : Bytes) : Option (Pod × List Say) :=
  match splitID packet with
  | none => some (p, [])
  | some (l, c, r) =>
    let p := { p with trx := trxAfter l c p.trx }
    match hear p.trx (lengthsOf l c) r with
    | .unknown => some (p, if l = 0x00 then [⟨0x00, 0x02, none, some [0x05, UInt8.ofNat c.toNat]⟩] else [])
    | .garbled => some (p, [])
    | .message t b => reactionTo l c p (clock p.looks) t b

/-- Packet after packet. -/
def Pod.hearsAll (clock : Clock) (p : Pod) : List Bytes → Option (Pod × List Say)
  | [] => some (p, [])
  | packet :: more =>
    match p.hears clock packet with
    | none => none
    | some (p1, s1) =>
      match p1.hearsAll clock more with
      | none => none
      | some (p2, s2) => some (p2, s1 ++ s2)

/-! ### frames and sessions -/

/-- The bytes written for a packet: the start byte, the length (one byte up to 256, for which it is 0; three bytes beyond), the
packet and the byte that makes the sum of all but the first byte a multiple of 256. -/
def frameBytes (packet : Bytes) : Bytes :=
  let b := (if packet.length > 256 then [0x00, UInt8.ofNat (packet.length / 256), UInt8.ofNat packet.length]
    else [UInt8.ofNat packet.length]) ++ packet
  0x55 :: b ++ [UInt8.ofNat (256 - byteSum b % 256)]

/-- The frame written for something said: the packet, or nothing at all if the iPod is not able to write it. -/
def Say.frame (on : Bool) (s : Say) : Bytes :=
  match s.packet on with
  | some packet => frameBytes packet
  | none => []

/-- A session: the frames and errors read, the iPod at the end, the frames written. What is said in answer to a frame is written
with or without transactions as the iPod is left by the last packet of the frame. -/
inductive Lives (clock : Clock) : Pod → List (Except Err Slice) → Pod → List Bytes → Prop
  | done {p} : Lives clock p [] p []
  | stops {p rest} : Lives clock p (.error .eof :: rest) p []
  | error {p e rest p' w} : e ≠ .eof → Lives clock p rest p' w → Lives clock p (.error e :: rest) p' w
  | frame {p f rest packets p1 ss p' w} : Scan f.spare f.data packets false → p.hearsAll clock packets = some (p1, ss) →
      Lives clock p1 rest p' w → Lives clock p (.ok f :: rest) p' (ss.map (Say.frame p1.trx) ++ w)

/-- A session the iPod does not survive: some frame holds a packet that goes beyond it, or one the iPod dies of. -/
inductive Dies (clock : Clock) : Pod → List (Except Err Slice) → Prop
  | overrun {p f rest packets} : Scan f.spare f.data packets true → Dies clock p (.ok f :: rest)
  | packet {p f rest packets b} : Scan f.spare f.data packets b → p.hearsAll clock packets = none → Dies clock p (.ok f :: rest)
  | error {p e rest} : e ≠ .eof → Dies clock p rest → Dies clock p (.error e :: rest)
  | later {p f rest packets p1 ss} : Scan f.spare f.data packets false → p.hearsAll clock packets = some (p1, ss) →
      Dies clock p1 rest → Dies clock p (.ok f :: rest)

end Spec
