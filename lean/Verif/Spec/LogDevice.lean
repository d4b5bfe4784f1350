import Verif.Spec.LogServer
import Verif.Spec.Decode
import Verif.Spec.Text
import Verif.Model.LogDevice

/-! Specification of what the emulated iPod itself logs. -/

namespace Spec
open Go Ipod Ipod.Log

/-- The name of the type of a token by its id. -/
def tokenNames : List (TokenID × String) :=
  [(⟨0, 0⟩, "*general.FIDIdentifyToken"), (⟨0, 1⟩, "*general.FIDAccCapsToken"), (⟨0, 2⟩, "*general.FIDAccInfoToken"),
   (⟨0, 3⟩, "*general.FIDiPodPreferenceToken"), (⟨0, 4⟩, "*general.FIDEAProtocolToken"),
   (⟨0, 5⟩, "*general.FIDBundleSeedIDPrefToken"), (⟨0, 7⟩, "*general.FIDScreenInfoToken"),
   (⟨0, 8⟩, "*general.FIDEAProtocolMetadataToken")]

/-- The name shown for a token with the id. -/
def TokenName (id : TokenID) (s : Bytes) : Prop :=
  (∃ name, (id, name) ∈ tokenNames ∧ s = ascii name) ∨
  (id.fidType = 1 ∧ s = ascii "*general.FIDMicrophoneCapsToken") ∨
  (¬ knownTokenID id ∧ s = ascii "[]uint8")

/-- The name of the type of a token by its kind. -/
def kindName : FIDToken → String
  | .nil => "<nil>"
  | .identify _ _ _ => "*general.FIDIdentifyToken"
  | .accCaps _ => "*general.FIDAccCapsToken"
  | .accInfo _ _ => "*general.FIDAccInfoToken"
  | .ipodPref _ _ _ => "*general.FIDiPodPreferenceToken"
  | .eaProtocol _ _ => "*general.FIDEAProtocolToken"
  | .bundleSeed _ => "*general.FIDBundleSeedIDPrefToken"
  | .screenInfo _ _ _ _ _ _ _ _ => "*general.FIDScreenInfoToken"
  | .eaMetadata _ _ => "*general.FIDEAProtocolMetadataToken"
  | .micCaps _ => "*general.FIDMicrophoneCapsToken"
  | .raw _ => "[]uint8"

/-- The named capabilities of a mask, one line each. -/
def capLines (mask : Nat) : Bytes :=
  ((accCapBits.filter fun x => mask / x.1 % 2 = 1).map fun x => ascii "Capability: " ++ ascii x.2 ++ [0x0A]).flatten

/-- What is shown of a token besides its name: capabilities by name, accessory infos by kind and value. -/
def TokenDetails (dump : Option Bytes → Bytes) : FIDToken → Bytes → Prop
  | .accCaps mask, s => s = capLines mask.toNat
  | .accInfo ty value, s => ∃ kind, EnumText accInfoTypes "AccInfoType" ty.toNat kind ∧ s = kind ++ ascii ": " ++ dump value ++ [0x0A]
  | _, s => s = []

/-- The tokens, one after another. -/
inductive TokenList (dump : Option Bytes → Bytes) : List FIDTokenValue → Bytes → Prop
  | nil : TokenList dump [] []
  | cons {v vs details s} : TokenDetails dump v.token details → TokenList dump vs s →
      TokenList dump (v :: vs) (ascii "* Token: " ++ ascii (kindName v.token) ++ [0x0A] ++ details ++ s)

end Spec
