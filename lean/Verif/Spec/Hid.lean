import Verif.Model.Hid

/-! Specification of the HID transport. -/

namespace Spec
open Go Ipod.Hid

/-- A usable report table: ids are bytes, all different, and every report can carry at least one byte. -/
structure GoodTable (defs : List ReportDef) : Prop where
  distinct : (defs.map (·.id)).Nodup
  isByte : ∀ d ∈ defs, 0 ≤ d.id ∧ d.id < 256
  carries : ∀ d ∈ defs, 2 ≤ d.len
  hasIn : ∃ d ∈ defs, d.dir = .accIn

/-- The link-control bytes of a transfer of `n` reports: Done alone, or MoreToFollow, then
Continue|MoreToFollow as often as needed, then Continue. -/
inductive LinkSeq : List UInt8 → Prop
  | single : LinkSeq [0x00]
  | several (k : Nat) : LinkSeq (0x02 :: (List.replicate k 0x03 ++ [0x01]))

/-- `b` consists of zeros. -/
def Zeros (b : Bytes) : Prop := ∀ x ∈ b, x = 0

/-- `r` is a report of a device-to-host definition `d`, completely filled. -/
def FilledBy (d : ReportDef) (r : Report) : Prop :=
  d.dir = .accIn ∧ (r.id.toNat : Int) = d.id ∧ (r.data.length : Int) = d.maxPayload

/-- The data of a sequence of reports. -/
def dataOf (rs : List Report) : Bytes := (rs.map (·.data)).flatten

/-- Which definition is right for the `n` remaining bytes: the smallest that holds them, or a largest if none does. -/
def BestDef (defs : List ReportDef) (n : Nat) (d : ReportDef) : Prop :=
  ((n : Int) ≤ d.maxPayload ∧
    ∀ d' ∈ defs, d'.dir = .accIn → (n : Int) ≤ d'.maxPayload → d.maxPayload ≤ d'.maxPayload) ∨
  (d.maxPayload < n ∧ ∀ d' ∈ defs, d'.dir = .accIn → d'.maxPayload ≤ d.maxPayload)

/-- What of the report's data counts: at most the payload its definition allows. -/
inductive Accepted (defs : List ReportDef) (r : Report) : Bytes → Prop
  | mk (pre post : List ReportDef) (d : ReportDef) : defs = pre ++ d :: post → d.id = r.id.toNat →
      (∀ p ∈ pre, p.id ≠ r.id.toNat) → 0 ≤ d.maxPayload → Accepted defs r (r.data.take d.maxPayload.toNat)

/-- A report that begins a transfer. -/
def Starts (r : Report) : Prop := r.linkControl = 0x00 ∨ r.linkControl = 0x02

/-- A report that ends a transfer. -/
def Ends (r : Report) : Prop := r.linkControl = 0x00 ∨ r.linkControl = 0x01

/-- A report with a defined link-control value. -/
def Known (r : Report) : Prop := r.linkControl.toNat ≤ 3

instance (r : Report) : Decidable (Starts r) := by unfold Starts; infer_instance
instance (r : Report) : Decidable (Ends r) := by unfold Ends; infer_instance
instance (r : Report) : Decidable (Known r) := by unfold Known; infer_instance

/-- The bytes carried by consecutive accepted reports, those with undefined link control not counting. -/
inductive Carried (defs : List ReportDef) : List Report → Bytes → Prop
  | nil : Carried defs [] []
  | cons {r rs b bs} : Known r → Accepted defs r b → Carried defs rs bs → Carried defs (r :: rs) (b ++ bs)
  | skip {r rs b bs} : ¬ Known r → Accepted defs r b → Carried defs rs bs → Carried defs (r :: rs) bs

end Spec

namespace Spec
open Go Ipod.Hid

/-- `used` are the reports one call consumed to deliver `frame`: nothing ends before the last report, which does;
the frame is what was carried from the last start on, or from the first report if there is no start. -/
def Delivered (defs : List ReportDef) (used : List Report) (frame : Bytes) : Prop :=
  (∃ init last, used = init ++ [last] ∧ Ends last ∧ ∀ r ∈ init, ¬ Ends r) ∧
  (∀ r ∈ used, ∃ b, Accepted defs r b) ∧
  ∃ a b, used = a ++ b ∧ Carried defs b frame ∧ (∀ r ∈ b.tail, ¬ Starts r) ∧
    (a = [] ∨ ∃ r ∈ b.head?, Starts r)

end Spec
