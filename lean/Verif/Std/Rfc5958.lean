import Verif.Spec.Grade
import Verif.Gen.Rfc5958
import Verif.Std.Rfc5280
import Verif.Std.Rfc5652

/-! The ASN.1 of tools/std/rfc5958.asn1 (generated by tools/stdgen.py). -/

namespace Verif
namespace Std
namespace Rfc5958

open Asn1 Spec.X680

/-- `Version ::=` -/
def Version : Ty :=
  named [("v1", 0), ("v2", 1)] INTEGER

/-- `PrivateKeyAlgorithmIdentifier ::=` -/
def PrivateKeyAlgorithmIdentifier : Ty :=
  Std.Rfc5280.AlgorithmIdentifier

/-- `PrivateKey ::=` -/
def PrivateKey : Ty :=
  OCTET_STRING

/-- `Attributes ::=` -/
def Attributes : Ty :=
  SET_OF Std.Rfc5652.Attribute

/-- `PublicKey ::=` -/
def PublicKey : Ty :=
  BIT_STRING

/-- `OneAsymmetricKey ::=` -/
def OneAsymmetricKey : Ty :=
  SEQUENCE [
    mandatory "version" Version,
    mandatory "privateKeyAlgorithm" PrivateKeyAlgorithmIdentifier,
    mandatory "privateKey" PrivateKey,
    optional "attributes" (implicit .context 0 Attributes),
    optional "publicKey" (implicit .context 1 PublicKey)]

/-- `AsymmetricKeyPackage ::=` -/
def AsymmetricKeyPackage : Ty :=
  constrained (SIZE_MAX 1) (SEQUENCE_OF OneAsymmetricKey)

/-- `PrivateKeyInfo ::=` -/
def PrivateKeyInfo : Ty :=
  OneAsymmetricKey

/-- `EncryptionAlgorithmIdentifier ::=` -/
def EncryptionAlgorithmIdentifier : Ty :=
  Std.Rfc5280.AlgorithmIdentifier

/-- `EncryptedData ::=` -/
def EncryptedData : Ty :=
  OCTET_STRING

/-- `EncryptedPrivateKeyInfo ::=` -/
def EncryptedPrivateKeyInfo : Ty :=
  SEQUENCE [
    mandatory "encryptionAlgorithm" EncryptionAlgorithmIdentifier,
    mandatory "encryptedData" EncryptedData]

/-- Classes of rfc5958.py and the types of the standard they implement. -/
def entries : List Entry :=
  [⟨"rfc5958.PrivateKeyAlgorithmIdentifier", Verif.Rfc5958.PrivateKeyAlgorithmIdentifier, PrivateKeyAlgorithmIdentifier, .same, false⟩,
   ⟨"rfc5958.EncryptedData", Verif.Rfc5958.EncryptedData, EncryptedData, .same, false⟩,
   ⟨"rfc5958.EncryptedPrivateKeyInfo", Verif.Rfc5958.EncryptedPrivateKeyInfo, EncryptedPrivateKeyInfo, .same, false⟩,
   ⟨"rfc5958.Version", Verif.Rfc5958.Version, Version, .same, false⟩,
   ⟨"rfc5958.PrivateKey", Verif.Rfc5958.PrivateKey, PrivateKey, .same, false⟩,
   ⟨"rfc5958.Attributes", Verif.Rfc5958.Attributes, Attributes, .same, false⟩,
   ⟨"rfc5958.PublicKey", Verif.Rfc5958.PublicKey, PublicKey, .same, false⟩,
   ⟨"rfc5958.OneAsymmetricKey", Verif.Rfc5958.OneAsymmetricKey, OneAsymmetricKey, .same, false⟩,
   ⟨"rfc5958.PrivateKeyInfo", Verif.Rfc5958.PrivateKeyInfo, PrivateKeyInfo, .same, false⟩,
   ⟨"rfc5958.AsymmetricKeyPackage", Verif.Rfc5958.AsymmetricKeyPackage, AsymmetricKeyPackage, .same, false⟩]

/-- Classes of rfc5958.py the transcription of the standard has no type for. -/
def beyond : List String :=
  ["rfc5958.KeyEncryptionAlgorithmIdentifier"]

/-- Constants of rfc5958.py and the values the standard gives them. -/
def constants : List Constant :=
  [⟨"rfc5958.id_ct_KP_aKeyPackage", Verif.Rfc5958.id_ct_KP_aKeyPackage, OBJECT_IDENTIFIER, .oid [2, 16, 840, 1, 101, 2, 1, 2, 78, 5], true⟩]

/-- Constants of rfc5958.py the transcription of the standard has no value for. -/
def others : List String :=
  []

def standard : Standard := ⟨Verif.Rfc5958.asModule, entries, beyond, constants, others⟩

end Rfc5958
end Std
end Verif
