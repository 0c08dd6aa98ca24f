import Verif.Spec.Grade
import Verif.Gen.Rfc5990
import Verif.Std.Rfc5280

/-! The ASN.1 of tools/std/rfc5990.asn1 (generated by tools/stdgen.py). -/

namespace Verif
namespace Std
namespace Rfc5990

open Asn1 Spec.X680

/-- `NullParms ::=` -/
def NullParms : Ty :=
  NULL

/-- `KeyEncapsulationMechanism ::=` -/
def KeyEncapsulationMechanism : Ty :=
  Std.Rfc5280.AlgorithmIdentifier

/-- `DataEncapsulationMechanism ::=` -/
def DataEncapsulationMechanism : Ty :=
  Std.Rfc5280.AlgorithmIdentifier

/-- `GenericHybridParameters ::=` -/
def GenericHybridParameters : Ty :=
  SEQUENCE [
    mandatory "kem" KeyEncapsulationMechanism,
    mandatory "dem" DataEncapsulationMechanism]

/-- `KeyDerivationFunction ::=` -/
def KeyDerivationFunction : Ty :=
  Std.Rfc5280.AlgorithmIdentifier

/-- `KeyLength ::=` -/
def KeyLength : Ty :=
  constrained (RANGE_MAX 1) INTEGER

/-- `RsaKemParameters ::=` -/
def RsaKemParameters : Ty :=
  SEQUENCE [
    mandatory "keyDerivationFunction" KeyDerivationFunction,
    mandatory "keyLength" KeyLength]

/-- `KDF2-HashFunction ::=` -/
def KDF2_HashFunction : Ty :=
  Std.Rfc5280.AlgorithmIdentifier

/-- `KDF3-HashFunction ::=` -/
def KDF3_HashFunction : Ty :=
  Std.Rfc5280.AlgorithmIdentifier

/-- `X9-SymmetricKeyWrappingScheme ::=` -/
def X9_SymmetricKeyWrappingScheme : Ty :=
  Std.Rfc5280.AlgorithmIdentifier

/-- `Camellia-KeyWrappingScheme ::=` -/
def Camellia_KeyWrappingScheme : Ty :=
  Std.Rfc5280.AlgorithmIdentifier

/-- Classes of rfc5990.py and the types of the standard they implement. -/
def entries : List Entry :=
  [⟨"rfc5990.AlgorithmIdentifier", Verif.Rfc5990.AlgorithmIdentifier, Std.Rfc5280.AlgorithmIdentifier, .same, false⟩,
   ⟨"rfc5990.NullParms", Verif.Rfc5990.NullParms, NullParms, .same, false⟩,
   ⟨"rfc5990.Camellia_KeyWrappingScheme", Verif.Rfc5990.Camellia_KeyWrappingScheme, Camellia_KeyWrappingScheme, .same, false⟩,
   ⟨"rfc5990.DataEncapsulationMechanism", Verif.Rfc5990.DataEncapsulationMechanism, DataEncapsulationMechanism, .same, false⟩,
   ⟨"rfc5990.KDF2_HashFunction", Verif.Rfc5990.KDF2_HashFunction, KDF2_HashFunction, .same, false⟩,
   ⟨"rfc5990.KDF3_HashFunction", Verif.Rfc5990.KDF3_HashFunction, KDF3_HashFunction, .same, false⟩,
   ⟨"rfc5990.KeyDerivationFunction", Verif.Rfc5990.KeyDerivationFunction, KeyDerivationFunction, .same, false⟩,
   ⟨"rfc5990.KeyEncapsulationMechanism", Verif.Rfc5990.KeyEncapsulationMechanism, KeyEncapsulationMechanism, .same, false⟩,
   ⟨"rfc5990.X9_SymmetricKeyWrappingScheme", Verif.Rfc5990.X9_SymmetricKeyWrappingScheme, X9_SymmetricKeyWrappingScheme, .same, false⟩,
   ⟨"rfc5990.GenericHybridParameters", Verif.Rfc5990.GenericHybridParameters, GenericHybridParameters, .same, false⟩,
   ⟨"rfc5990.KeyLength", Verif.Rfc5990.KeyLength, KeyLength, .same, false⟩,
   ⟨"rfc5990.RsaKemParameters", Verif.Rfc5990.RsaKemParameters, RsaKemParameters, .same, false⟩]

/-- Classes of rfc5990.py the transcription of the standard has no type for. -/
def beyond : List String :=
  []

/-- Constants of rfc5990.py and the values the standard gives them. -/
def constants : List Constant :=
  [⟨"rfc5990.is18033_2", Verif.Rfc5990.is18033_2, OBJECT_IDENTIFIER, .oid [1, 0, 18033, 2], true⟩,
   ⟨"rfc5990.nistAlgorithm", Verif.Rfc5990.nistAlgorithm, OBJECT_IDENTIFIER, .oid [2, 16, 840, 1, 101, 3, 4], true⟩,
   ⟨"rfc5990.pkcs_1", Verif.Rfc5990.pkcs_1, OBJECT_IDENTIFIER, .oid [1, 2, 840, 113549, 1, 1], true⟩,
   ⟨"rfc5990.x9_44", Verif.Rfc5990.x9_44, OBJECT_IDENTIFIER, .oid [1, 3, 133, 16, 840, 9, 44], true⟩,
   ⟨"rfc5990.x9_44_components", Verif.Rfc5990.x9_44_components, OBJECT_IDENTIFIER, .oid [1, 3, 133, 16, 840, 9, 44, 1], true⟩,
   ⟨"rfc5990.id_rsa_kem", Verif.Rfc5990.id_rsa_kem, OBJECT_IDENTIFIER, .oid [1, 2, 840, 113549, 1, 9, 16, 3, 14], true⟩,
   ⟨"rfc5990.id_kem_rsa", Verif.Rfc5990.id_kem_rsa, OBJECT_IDENTIFIER, .oid [1, 0, 18033, 2, 2, 4], true⟩,
   ⟨"rfc5990.id_kdf_kdf2", Verif.Rfc5990.id_kdf_kdf2, OBJECT_IDENTIFIER, .oid [1, 3, 133, 16, 840, 9, 44, 1, 1], true⟩,
   ⟨"rfc5990.id_kdf_kdf3", Verif.Rfc5990.id_kdf_kdf3, OBJECT_IDENTIFIER, .oid [1, 3, 133, 16, 840, 9, 44, 1, 2], true⟩,
   ⟨"rfc5990.id_sha1", Verif.Rfc5990.id_sha1, OBJECT_IDENTIFIER, .oid [1, 3, 14, 3, 2, 26], true⟩,
   ⟨"rfc5990.id_sha224", Verif.Rfc5990.id_sha224, OBJECT_IDENTIFIER, .oid [2, 16, 840, 1, 101, 3, 4, 2, 4], true⟩,
   ⟨"rfc5990.id_sha256", Verif.Rfc5990.id_sha256, OBJECT_IDENTIFIER, .oid [2, 16, 840, 1, 101, 3, 4, 2, 1], true⟩,
   ⟨"rfc5990.id_sha384", Verif.Rfc5990.id_sha384, OBJECT_IDENTIFIER, .oid [2, 16, 840, 1, 101, 3, 4, 2, 2], true⟩,
   ⟨"rfc5990.id_sha512", Verif.Rfc5990.id_sha512, OBJECT_IDENTIFIER, .oid [2, 16, 840, 1, 101, 3, 4, 2, 3], true⟩,
   ⟨"rfc5990.id_aes128_Wrap", Verif.Rfc5990.id_aes128_Wrap, OBJECT_IDENTIFIER, .oid [2, 16, 840, 1, 101, 3, 4, 1, 5], true⟩,
   ⟨"rfc5990.id_aes192_Wrap", Verif.Rfc5990.id_aes192_Wrap, OBJECT_IDENTIFIER, .oid [2, 16, 840, 1, 101, 3, 4, 1, 25], true⟩,
   ⟨"rfc5990.id_aes256_Wrap", Verif.Rfc5990.id_aes256_Wrap, OBJECT_IDENTIFIER, .oid [2, 16, 840, 1, 101, 3, 4, 1, 45], true⟩,
   ⟨"rfc5990.id_alg_CMS3DESwrap", Verif.Rfc5990.id_alg_CMS3DESwrap, OBJECT_IDENTIFIER, .oid [1, 2, 840, 113549, 1, 9, 16, 3, 6], true⟩,
   ⟨"rfc5990.id_camellia128_Wrap", Verif.Rfc5990.id_camellia128_Wrap, OBJECT_IDENTIFIER, .oid [1, 2, 392, 200011, 61, 1, 1, 3, 2], true⟩,
   ⟨"rfc5990.id_camellia192_Wrap", Verif.Rfc5990.id_camellia192_Wrap, OBJECT_IDENTIFIER, .oid [1, 2, 392, 200011, 61, 1, 1, 3, 3], true⟩,
   ⟨"rfc5990.id_camellia256_Wrap", Verif.Rfc5990.id_camellia256_Wrap, OBJECT_IDENTIFIER, .oid [1, 2, 392, 200011, 61, 1, 1, 3, 4], true⟩]

/-- Constants of rfc5990.py the transcription of the standard has no value for. -/
def others : List String :=
  ["rfc5990.rsa_kem",
   "rfc5990.kem_rsa",
   "rfc5990.kdf2",
   "rfc5990.kdf3",
   "rfc5990.sha1",
   "rfc5990.sha224",
   "rfc5990.sha256",
   "rfc5990.sha384",
   "rfc5990.sha512",
   "rfc5990.aes128_Wrap",
   "rfc5990.aes192_Wrap",
   "rfc5990.aes256_Wrap",
   "rfc5990.tdes_Wrap",
   "rfc5990.camellia128_Wrap",
   "rfc5990.camellia192_Wrap",
   "rfc5990.camellia256_Wrap"]

def standard : Standard := ⟨Verif.Rfc5990.asModule, entries, beyond, constants, others⟩

end Rfc5990
end Std
end Verif
