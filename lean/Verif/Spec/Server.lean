import Verif.Spec.Wire
import Verif.Spec.Replies
import Verif.Model.Server

/-! Specification of the server: what is found in a frame, what happens to it. -/

namespace Spec
open Go Ipod

/-- Behind a start byte, `d` announces a packet that goes beyond the frame, and the memory behind the frame (`spare`) either
ends too early or happens to complete the checksum. -/
def Overruns (spare d : Bytes) : Prop :=
  ∃ hdr body n, d = hdr ++ body ∧ LenHeader n hdr ∧ 3 ≤ d.length ∧ body.length < n + 1 ∧
    ((body ++ spare).length < n + 1 ∨ byteSum (hdr ++ (body ++ spare).take (n + 1)) % 256 = 0)

/-- A packet begins right at the beginning of `d`. -/
def PacketHere (d : Bytes) : Prop := ∃ p w rest, IsPacket p w ∧ d = w ++ rest

/-- `Scan spare d ps crash`: going through the frame `d` from start byte to start byte, `ps` are the packets found; where no
packet begins only the start byte is skipped. `crash`: the way ends at an overrunning packet. -/
inductive Scan (spare : Bytes) : Bytes → List Bytes → Bool → Prop
  | done {d} : Filler d → Scan spare d [] false
  | crash {j d} : Filler j → Overruns spare d → Scan spare (j ++ 0x55 :: d) [] true
  | packet {j w rest p ps b} : Filler j → IsPacket p w → Scan spare rest ps b →
      Scan spare (j ++ w ++ rest) (p :: ps) b
  | skip {j d ps b} : Filler j → ¬ PacketHere (0x55 :: d) → ¬ Overruns spare d → Scan spare d ps b →
      Scan spare (j ++ 0x55 :: d) ps b

/-- The packets are decoded one after another, the mode passing from one to the next. -/
inductive Decoded : Bool → List Bytes → Bool → List Command → Prop
  | nil {m} : Decoded m [] m []
  | cons {m m' m'' p ps cmd cmds err} : unmarshalCmd m p = .ret (m', cmd, err) → Decoded m' ps m'' cmds →
      Decoded m (p :: ps) m'' (cmd :: cmds)

/-- The commands are handled one after another; `news` is what each of them made the device send. -/
inductive HandledEach {σ : Type} (D : Device σ) (clock : Clock) :
    List Command → Ctx σ → Ctx σ → List (List Command) → Prop
  | nil {c} : HandledEach D clock [] c c []
  | cons {cmd cmds c c' c'' new news} : Handles D clock cmd c c' new → HandledEach D clock cmds c' c'' news →
      HandledEach D clock (cmd :: cmds) c c'' (new :: news)

/-- The commands are encoded one after another, the mode passing from one to the next. -/
inductive Encoded : Bool → List Command → Bool → List (Except Err Bytes) → Prop
  | nil {m} : Encoded m [] m []
  | cons {m m' m'' cmd cmds r rs} : marshalCmd m cmd = (m', r) → Encoded m' cmds m'' rs →
      Encoded m (cmd :: cmds) m'' (r :: rs)

/-- What is handed to the transport for an encoded command: a packet, or the empty frame (of which the transport makes no
report at all) if the encoding failed. -/
inductive FrameFor : Except Err Bytes → Bytes → Prop
  | packet {p w} : IsPacket p w → FrameFor (.ok p) w
  | nothing {e} : FrameFor (.error e) []

/-- A packet the decoder cannot survive: RequestApplicationLaunch with a body of less than 3 bytes, or SetFIDTokenValues with
a bare protocol token; the transaction counts iff transactions are on. -/
def Malformed (m : Bool) (pkt : Bytes) : Prop :=
  ∃ trx : Bytes, trx.length = (if m then 2 else 0) ∧
    ((∃ body, pkt = [0x00, 0x64] ++ trx ++ body ∧ body.length < 3) ∨
     (∃ n r, pkt = [0x00, 0x39] ++ trx ++ (n :: r) ∧ BareEAToken n.toNat r))

end Spec
