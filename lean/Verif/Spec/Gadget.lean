import Verif.Spec.Emulator
import Verif.Model.Trace

/-!
# Specification of `ipod serve` as a whole, as a function of what is read from the device file

Bytes in, bytes out: reports are taken apart and put together, frames searched for packets, and the packets heard and answered by
the iPod of `Spec/Emulator`. Nothing of the model is used but the results of the device's `Read` calls.
-/

namespace Spec
open Go Ipod

/-! ### reports -/

/-- The payloads of the reports of the two tables, by id: those of the accessory and of the iPod alike may be received. -/
def rooms (legacy : Bool) : List (UInt8 × Nat) :=
  if legacy then
    [(1, 4), (2, 8), (3, 12), (4, 16), (5, 24), (6, 48), (7, 94), (8, 192), (9, 256), (10, 384), (11, 512), (12, 766),
      (13, 4), (14, 8), (15, 12), (16, 16), (17, 24), (18, 48), (19, 94), (20, 192), (21, 254)]
  else [(1, 11), (2, 13), (3, 19), (4, 62), (5, 7), (6, 9), (7, 13), (8, 19), (9, 62)]

/-- The reports the iPod may send, in the order in which they are considered. -/
def sendable (legacy : Bool) : List (UInt8 × Nat) := if legacy then (rooms true).take 12 else rooms false

/-- The report for `n` bytes: the first one with room for all of them, else the last one. -/
def reportFor (legacy : Bool) (n : Nat) : UInt8 × Nat :=
  ((sendable legacy).find? fun r => n ≤ r.2).getD (if legacy then (12, 766) else (9, 62))

/-- The reports a frame is sent in: id, link control (bit 0: not the first one, bit 1: not the last one), then as much of the
frame as there is room for; the last report is filled up with zeros. -/
def reportsOf (legacy : Bool) (first : Bool) (frame : Bytes) : List Bytes :=
  if h : frame = [] then []
  else
    let r := reportFor legacy frame.length
    if frame.length ≤ r.2 then [r.1 :: (if first then 0x00 else 0x01) :: (frame ++ List.replicate (r.2 - frame.length) 0)]
    else (r.1 :: (if first then 0x02 else 0x03) :: frame.take r.2) :: reportsOf legacy false (frame.drop (max r.2 1))
termination_by frame.length
decreasing_by
  have := List.length_pos_iff.2 h
  rw [List.length_drop]; omega

/-! ### packets in a frame -/

/-- Behind a start byte: how many bytes are announced, the bytes of the announcement and what comes behind it. -/
def announced : Bytes → Option (Nat × Bytes × Bytes)
  | 0x00 :: a :: b :: r => some (a.toNat * 256 + b.toNat, [0x00, a, b], r)
  | n :: a :: b :: r => some (n.toNat, [n], a :: b :: r)
  | _ => none

/-- Behind a start byte: the packet and what comes behind it, if all of it is there and the sum is right. -/
def packetAt (d : Bytes) : Option (Bytes × Bytes) :=
  match announced d with
  | none => none
  | some (n, hdr, r) =>
    if r.length < n + 1 then none
    else if byteSum (hdr ++ r.take (n + 1)) % 256 = 0 then some (r.take n, r.drop (n + 1)) else none

theorem packetAt_shorter {d p rest : Bytes} (h : packetAt d = some (p, rest)) : rest.length ≤ d.length := by
  unfold packetAt announced at h
  repeat' split at h
  all_goals first | cases h; done | skip
  all_goals
    rename_i e _ _
    split at e <;> cases e
    all_goals
      simp only [Option.some.injEq, Prod.mk.injEq] at h
      rw [← h.2, List.length_drop]
      simp only [List.length_cons] at *
      omega

/-- The packets of a frame: where no packet begins, the next start byte is looked for. -/
def packetsIn (d : Bytes) : List Bytes :=
  match d with
  | [] => []
  | x :: d =>
    if x = 0x55 then
      match h : packetAt d with
      | some (p, rest) => p :: packetsIn rest
      | none => packetsIn d
    else packetsIn d
termination_by d.length
decreasing_by
  · have := packetAt_shorter h
    simp only [List.length_cons]; omega
  · simp
  · simp

/-- Somewhere a start byte and a length announce more than there is in the frame. -/
def exceeds (d : Bytes) : Bool :=
  match d with
  | [] => false
  | x :: d =>
    if x = 0x55 then
      match h : packetAt d with
      | some (_, rest) => exceeds rest
      | none => (match announced d with
          | some (n, _, r) => decide (r.length < n + 1)
          | none => false) || exceeds d
    else exceeds d
termination_by d.length
decreasing_by
  · have := packetAt_shorter h
    simp only [List.length_cons]; omega
  · simp
  · simp

/-! ### the gadget -/

/-- The iPod and what has been received of a frame. -/
structure Gadget where
  pod : Pod
  part : Bytes
deriving DecidableEq

/-- What a read comes to: the server ends, dies, or goes on, with the frames it writes. -/
inductive Turn where
  | ends
  | dies
  | goes (g : Gadget) (frames : List Bytes)
deriving DecidableEq

/-- A read, as the gadget sees it: its end, an error or something that is no report of the table, or a report: link control and
what of its data counts. -/
inductive Seen where
  | eof
  | nothing
  | report (link : UInt8) (data : Bytes)
deriving DecidableEq

def seen (legacy : Bool) (r : Hid.ReadRes) : Seen :=
  match r.err with
  | some .eof => .eof
  | some _ => .nothing
  | none =>
    match r.data.take 1024 with
    | id :: link :: b :: d =>
      match (rooms legacy).lookup id with
      | none => .nothing
      | some room => .report link ((b :: d).take room)
    | _ => .nothing

/-- The frame a read completes. -/
def completes (legacy : Bool) (g : Gadget) (r : Hid.ReadRes) : Option Bytes :=
  match seen legacy r with
  | .report link d => if link = 0x00 then some d else if link = 0x01 then some (g.part ++ d) else none
  | _ => none

/-- What the gadget does upon a read. -/
def Gadget.reads (legacy : Bool) (clock : Clock) (g : Gadget) (r : Hid.ReadRes) : Turn :=
  match seen legacy r with
  | .eof => .ends
  | .nothing => .goes { g with part := [] } []
  | .report link d =>
    match completes legacy g r with
    | some frame =>
      match g.pod.hearsAll clock (packetsIn frame) with
      | none => .dies
      | some (p, ss) => .goes ⟨p, []⟩ (ss.map (Say.frame p.trx))
    | none => if link = 0x02 then .goes { g with part := d } [] else if link = 0x03 then .goes { g with part := g.part ++ d } []
      else .goes g []

/-- What happens at the device: a read, or a report written, with the error if the device did not take it. -/
inductive Deed where
  | got (r : Hid.ReadRes)
  | put (report : Bytes) (err : Option Err)
deriving DecidableEq

/-- The reports of a frame are written until the device refuses one; `i` are the reports written before, `fails` tells what
becomes of which. -/
def puts (fails : Nat → Option Err) (i : Nat) : List Bytes → List Deed
  | [] => []
  | r :: rs =>
    match fails i with
    | none => .put r none :: puts fails (i + 1) rs
    | some e => [.put r (some e)]

/-- Frame after frame. -/
def putsAll (legacy : Bool) (fails : Nat → Option Err) (i : Nat) : List Bytes → List Deed
  | [] => []
  | f :: fs =>
    let ds := puts fails i (reportsOf legacy true f)
    ds ++ putsAll legacy fails (i + ds.length) fs

/-- Everything that happens at the device while its reads give these results; `i` reports were written before. -/
def Gadget.deeds (legacy : Bool) (clock : Clock) (fails : Nat → Option Err) : Nat → Gadget → List Hid.ReadRes → List Deed
  | _, _, [] => []
  | i, g, r :: rs =>
    .got r ::
      match g.reads legacy clock r with
      | .ends => []
      | .dies => []
      | .goes g' frames =>
        let ds := putsAll legacy fails i frames
        ds ++ Gadget.deeds legacy clock fails (i + ds.length) g' rs

/-- The gadget after these reads; `none` if it has ended or died. -/
def Gadget.after (legacy : Bool) (clock : Clock) : Gadget → List Hid.ReadRes → Option Gadget
  | g, [] => some g
  | g, r :: rs =>
    match g.reads legacy clock r with
    | .goes g' _ => g'.after legacy clock rs
    | _ => none

/-- The gadget, having read `pre`, is handed a frame that announces more than it has. -/
def Tempted (legacy : Bool) (clock : Clock) (g : Gadget) (pre : List Hid.ReadRes) (r : Hid.ReadRes) : Prop :=
  ∃ g' frame, g.after legacy clock pre = some g' ∧ completes legacy g' r = some frame ∧ exceeds frame = true

end Spec
