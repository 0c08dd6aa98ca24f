import Verif.Spec.Grade
import Verif.Gen.Rfc5208
import Verif.Std.Rfc5280

/-! The ASN.1 of tools/std/rfc5208.asn1 (generated by tools/stdgen.py). -/

namespace Verif
namespace Std
namespace Rfc5208

open Asn1 Spec.X680

/-- `Version ::=` -/
def Version : Ty :=
  named [("v1", 0)] INTEGER

/-- `PrivateKey ::=` -/
def PrivateKey : Ty :=
  OCTET_STRING

/-- `Attributes ::=` -/
def Attributes : Ty :=
  SET_OF Std.Rfc5280.Attribute

/-- `PrivateKeyInfo ::=` -/
def PrivateKeyInfo : Ty :=
  SEQUENCE [
    mandatory "version" Version,
    mandatory "privateKeyAlgorithm" Std.Rfc5280.AlgorithmIdentifier,
    mandatory "privateKey" PrivateKey,
    optional "attributes" (implicit .context 0 Attributes)]

/-- `EncryptedData ::=` -/
def EncryptedData : Ty :=
  OCTET_STRING

/-- `EncryptedPrivateKeyInfo ::=` -/
def EncryptedPrivateKeyInfo : Ty :=
  SEQUENCE [
    mandatory "encryptionAlgorithm" Std.Rfc5280.AlgorithmIdentifier,
    mandatory "encryptedData" EncryptedData]

/-- `KeyEncryptionAlgorithms ::=` -/
def KeyEncryptionAlgorithms : Ty :=
  Std.Rfc5280.AlgorithmIdentifier

/-- `PrivateKeyAlgorithms ::=` -/
def PrivateKeyAlgorithms : Ty :=
  Std.Rfc5280.AlgorithmIdentifier

/-- Classes of rfc5208.py and the types of the standard they implement. -/
def entries : List Entry :=
  [⟨"rfc5208.Version", Verif.Rfc5208.Version, Version, .same, true⟩,
   ⟨"rfc5208.KeyEncryptionAlgorithms", Verif.Rfc5208.KeyEncryptionAlgorithms, KeyEncryptionAlgorithms, .same, false⟩,
   ⟨"rfc5208.PrivateKeyAlgorithms", Verif.Rfc5208.PrivateKeyAlgorithms, PrivateKeyAlgorithms, .same, false⟩,
   ⟨"rfc5208.EncryptedData", Verif.Rfc5208.EncryptedData, EncryptedData, .same, false⟩,
   ⟨"rfc5208.EncryptedPrivateKeyInfo", Verif.Rfc5208.EncryptedPrivateKeyInfo, EncryptedPrivateKeyInfo, .same, false⟩,
   ⟨"rfc5208.PrivateKey", Verif.Rfc5208.PrivateKey, PrivateKey, .same, false⟩,
   ⟨"rfc5208.Attributes", Verif.Rfc5208.Attributes, Attributes, (.refused [49, 7, 48, 5, 6, 1, 43, 49, 0]), true⟩,
   ⟨"rfc5208.PrivateKeyInfo", Verif.Rfc5208.PrivateKeyInfo, PrivateKeyInfo, (.refused [48, 19, 2, 1, 0, 48, 3, 6, 1, 43, 4, 0, 160, 7, 48, 5, 6, 1, 43, 49, 0]), true⟩]

/-- Classes of rfc5208.py the transcription of the standard has no type for. -/
def beyond : List String :=
  []

/-- Constants of rfc5208.py and the values the standard gives them. -/
def constants : List Constant :=
  []

/-- Constants of rfc5208.py the transcription of the standard has no value for. -/
def others : List String :=
  []

def standard : Standard := ⟨Verif.Rfc5208.asModule, entries, beyond, constants, others⟩

end Rfc5208
end Std
end Verif
