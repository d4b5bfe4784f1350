import Verif.Spec.Session
import Verif.Spec.Constants
import Verif.Spec.Decode

/-! Specification of the identification and authentication of an accessory, as packets: what it sends, and what it gets. -/

namespace Spec
open Go Ipod

/-- A packet of the accessory and the packets it gets back. -/
abbrev Exchange := Bytes × List Bytes

/-- The acknowledgement of a token: length, kind (two bytes), status 0, and which one for those which come in several instances. -/
def tokenAck (t : FIDTokenValue) : Bytes :=
  match t.token with
  | .accInfo which _ | .ipodPref which _ _ | .eaProtocol which _ => [4, t.id.fidType, t.id.fidSubtype, 0, which]
  | _ => [3, t.id.fidType, t.id.fidSubtype, 0]

/-- Any number of packets with tokens of known kinds; each is acknowledged token by token. -/
inductive TokensSent : List Exchange → List FIDTokenValue → Prop
  | nil : TokensSent [] []
  | cons {t body ts xs rest} : CountedReads TokenValueReads body ts → (∀ v ∈ ts, ¬ UnknownToken v) → TokensSent xs rest →
      TokensSent ((packetOf 0x00 0x39 (some t) body,
        [packetOf 0x00 0x3A (some t) (UInt8.ofNat ts.length :: ts.flatMap tokenAck)]) :: xs) (ts ++ rest)

/-- The sections `i .. max` of a certificate of version 2 or later. All but the last are acknowledged. After the last one the device
asks for the sample rates, accepts the certificate and asks for the signature of a challenge, which is zero. `on`: are transactions
used? `own`: the transaction of the request for the sample rates. -/
inductive CertificateSent (on : Bool) (own : Option UInt16) (max : UInt8) : Nat → List Exchange → Bytes → Prop
  | last {t : Option UInt16} {major minor cur : UInt8} {data : Bytes} {i : Nat} : t.isSome = on → 2 ≤ major.toNat → cur.toNat = i →
      i = max.toNat → CertificateSent on own max i
        [(packetOf 0x00 0x15 t ([major, minor, cur, max] ++ data),
          [packetOf 0x0A 0x02 own [], packetOf 0x00 0x16 t [0x00], packetOf 0x00 0x17 t (List.replicate 20 0x00 ++ [0x00])])] data
  | next {t : Option UInt16} {major minor cur : UInt8} {data rest : Bytes} {i : Nat} {xs : List Exchange} : t.isSome = on →
      2 ≤ major.toNat → cur.toNat = i → i < max.toNat → CertificateSent on own max (i + 1) xs rest →
      CertificateSent on own max i
        ((packetOf 0x00 0x15 t ([major, minor, cur, max] ++ data), [packetOf 0x00 0x02 t [0x00, 0x15]]) :: xs) (data ++ rest)

/-- Identification with tokens, then authentication: start (acknowledged), tokens, end (accepted, the certificate is requested with
transaction 1), sections of the certificate (the sample rates are requested with transaction 2), signature (accepted). -/
inductive Handshake : List Exchange → List FIDTokenValue → Bytes → Prop
  | mk {t0 t1 t2 : UInt16} {max : UInt8} {tokens cert : List Exchange} {ts : List FIDTokenValue} {certificate signature : Bytes} :
      TokensSent tokens ts → CertificateSent true (some 2) max 0 cert certificate →
      Handshake
        ([(packetOf 0x00 0x38 (some t0) [], [packetOf 0x00 0x02 (some t0) [0x00, 0x38]])] ++ tokens ++
         [(packetOf 0x00 0x3B (some t1) [0x00], [packetOf 0x00 0x3C (some t1) [0x00], packetOf 0x00 0x14 (some 1) []])] ++ cert ++
         [(packetOf 0x00 0x18 (some t2) signature, [packetOf 0x00 0x19 (some t2) [0x00]])]) ts certificate

/-- Identification by a list of lingoes and a device number other than zero, without transactions, then authentication. -/
inductive OldHandshake : List Exchange → Bytes → Prop
  | mk {lingoes options device : Bytes} {number : Nat} {max : UInt8} {cert : List Exchange} {certificate signature : Bytes} :
      lingoes.length = 4 → options.length = 4 → IsBE 4 number device → number ≠ 0 →
      CertificateSent false none max 0 cert certificate →
      OldHandshake
        ([(packetOf 0x00 0x13 none (lingoes ++ options ++ device), [packetOf 0x00 0x02 none [0x00, 0x13], packetOf 0x00 0x14 none []])] ++
         cert ++ [(packetOf 0x00 0x18 none signature, [packetOf 0x00 0x19 none [0x00]])]) certificate

end Spec
