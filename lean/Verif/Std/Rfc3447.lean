import Verif.Spec.Grade
import Verif.Gen.Rfc3447
import Verif.Std.Rfc2459

/-! The ASN.1 of tools/std/rfc3447.asn1 (generated by tools/stdgen.py). -/

namespace Verif
namespace Std
namespace Rfc3447

open Asn1 Spec.X680

/-- `RSAPublicKey ::=` -/
def RSAPublicKey : Ty :=
  SEQUENCE [
    mandatory "modulus" INTEGER,
    mandatory "publicExponent" INTEGER]

/-- `Version ::=` -/
def Version : Ty :=
  named [("two-prime", 0), ("multi", 1)] INTEGER

/-- `OtherPrimeInfo ::=` -/
def OtherPrimeInfo : Ty :=
  SEQUENCE [
    mandatory "prime" INTEGER,
    mandatory "exponent" INTEGER,
    mandatory "coefficient" INTEGER]

/-- `OtherPrimeInfos ::=` -/
def OtherPrimeInfos : Ty :=
  constrained (SIZE_MAX 1) (SEQUENCE_OF OtherPrimeInfo)

/-- `RSAPrivateKey ::=` -/
def RSAPrivateKey : Ty :=
  SEQUENCE [
    mandatory "version" Version,
    mandatory "modulus" INTEGER,
    mandatory "publicExponent" INTEGER,
    mandatory "privateExponent" INTEGER,
    mandatory "prime1" INTEGER,
    mandatory "prime2" INTEGER,
    mandatory "exponent1" INTEGER,
    mandatory "exponent2" INTEGER,
    mandatory "coefficient" INTEGER,
    optional "otherPrimeInfos" OtherPrimeInfos]

/-- `HashAlgorithm ::=` -/
def HashAlgorithm : Ty :=
  Std.Rfc2459.AlgorithmIdentifier

/-- `MaskGenAlgorithm ::=` -/
def MaskGenAlgorithm : Ty :=
  Std.Rfc2459.AlgorithmIdentifier

/-- `PSourceAlgorithm ::=` -/
def PSourceAlgorithm : Ty :=
  Std.Rfc2459.AlgorithmIdentifier

/-- `DigestAlgorithm ::=` -/
def DigestAlgorithm : Ty :=
  Std.Rfc2459.AlgorithmIdentifier

/-- `EncodingParameters ::=` -/
def EncodingParameters : Ty :=
  constrained (SIZE_MAX 0) OCTET_STRING

/-- `TrailerField ::=` -/
def TrailerField : Ty :=
  named [("trailerFieldBC", 1)] INTEGER

/-- `DigestInfo ::=` -/
def DigestInfo : Ty :=
  SEQUENCE [
    mandatory "digestAlgorithm" DigestAlgorithm,
    mandatory "digest" OCTET_STRING]

/-- Classes of rfc3447.py and the types of the standard they implement. -/
def entries : List Entry :=
  [⟨"rfc3447.RSAPrivateKey", Verif.Rfc3447.RSAPrivateKey, RSAPrivateKey, .same, false⟩,
   ⟨"rfc3447.OtherPrimeInfo", Verif.Rfc3447.OtherPrimeInfo, OtherPrimeInfo, .same, false⟩,
   ⟨"rfc3447.OtherPrimeInfos", Verif.Rfc3447.OtherPrimeInfos, OtherPrimeInfos, .same, false⟩]

/-- Classes of rfc3447.py the transcription of the standard has no type for. -/
def beyond : List String :=
  []

/-- Constants of rfc3447.py and the values the standard gives them. -/
def constants : List Constant :=
  []

/-- Constants of rfc3447.py the transcription of the standard has no value for. -/
def others : List String :=
  []

def standard : Standard := ⟨Verif.Rfc3447.asModule, entries, beyond, constants, others⟩

end Rfc3447
end Std
end Verif
