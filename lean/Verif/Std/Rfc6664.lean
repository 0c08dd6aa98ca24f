import Verif.Spec.Grade
import Verif.Gen.Rfc6664
import Verif.Std.Rfc3279
import Verif.Std.Rfc4055
import Verif.Std.Rfc5280
import Verif.Std.Rfc5480

/-! The ASN.1 of tools/std/rfc6664.asn1 (generated by tools/stdgen.py). -/

namespace Verif
namespace Std
namespace Rfc6664

open Asn1 Spec.X680

/-- `RSAKeySize ::=` -/
def RSAKeySize : Ty :=
  INTEGER

/-- `RSAKeyCapabilities ::=` -/
def RSAKeyCapabilities : Ty :=
  SEQUENCE [
    mandatory "minKeySize" RSAKeySize,
    optional "maxKeySize" RSAKeySize]

/-- `DSAKeySize ::=` -/
def DSAKeySize : Ty :=
  constrained (VALUES [.int 1024, .int 2048, .int 3072, .int 7680, .int 15360]) INTEGER

/-- `EC-SMimeCaps ::=` -/
def EC_SMimeCaps : Ty :=
  constrained (SIZE_MAX 1) (SEQUENCE_OF Std.Rfc5480.ECParameters)

/-- Classes of rfc6664.py and the types of the standard they implement. -/
def entries : List Entry :=
  [⟨"rfc6664.AlgorithmIdentifier", Verif.Rfc6664.AlgorithmIdentifier, Std.Rfc5280.AlgorithmIdentifier, .same, false⟩,
   ⟨"rfc6664.Dss_Parms", Verif.Rfc6664.Dss_Parms, Std.Rfc3279.Dss_Parms, .same, false⟩,
   ⟨"rfc6664.ECParameters", Verif.Rfc6664.ECParameters, Std.Rfc5480.ECParameters, .same, false⟩,
   ⟨"rfc6664.RSAKeySize", Verif.Rfc6664.RSAKeySize, RSAKeySize, .same, false⟩,
   ⟨"rfc6664.RSAKeyCapabilities", Verif.Rfc6664.RSAKeyCapabilities, RSAKeyCapabilities, .same, false⟩,
   ⟨"rfc6664.DSAKeySize", Verif.Rfc6664.DSAKeySize, DSAKeySize, .same, false⟩,
   ⟨"rfc6664.EC_SMimeCaps", Verif.Rfc6664.EC_SMimeCaps, EC_SMimeCaps, .same, false⟩]

/-- Classes of rfc6664.py the transcription of the standard has no type for. -/
def beyond : List String :=
  ["rfc6664.RsaSsa_Pss_sig_caps",
   "rfc6664.DSAKeyCapabilities"]

/-- Constants of rfc6664.py and the values the standard gives them. -/
def constants : List Constant :=
  [⟨"rfc6664.dhpublicnumber", Verif.Rfc6664.dhpublicnumber, OBJECT_IDENTIFIER, .oid [1, 2, 840, 10046, 2, 1], true⟩,
   ⟨"rfc6664.id_dsa", Verif.Rfc6664.id_dsa, OBJECT_IDENTIFIER, .oid [1, 2, 840, 10040, 4, 1], true⟩,
   ⟨"rfc6664.id_ecPublicKey", Verif.Rfc6664.id_ecPublicKey, OBJECT_IDENTIFIER, .oid [1, 2, 840, 10045, 2, 1], true⟩,
   ⟨"rfc6664.rsaEncryption", Verif.Rfc6664.rsaEncryption, OBJECT_IDENTIFIER, .oid [1, 2, 840, 113549, 1, 1, 1], true⟩,
   ⟨"rfc6664.id_mgf1", Verif.Rfc6664.id_mgf1, OBJECT_IDENTIFIER, .oid [1, 2, 840, 113549, 1, 1, 8], true⟩,
   ⟨"rfc6664.id_RSAES_OAEP", Verif.Rfc6664.id_RSAES_OAEP, OBJECT_IDENTIFIER, .oid [1, 2, 840, 113549, 1, 1, 7], true⟩,
   ⟨"rfc6664.id_RSASSA_PSS", Verif.Rfc6664.id_RSASSA_PSS, OBJECT_IDENTIFIER, .oid [1, 2, 840, 113549, 1, 1, 10], true⟩,
   ⟨"rfc6664.id_ecDH", Verif.Rfc6664.id_ecDH, OBJECT_IDENTIFIER, .oid [1, 3, 132, 1, 12], true⟩,
   ⟨"rfc6664.id_ecMQV", Verif.Rfc6664.id_ecMQV, OBJECT_IDENTIFIER, .oid [1, 3, 132, 1, 13], true⟩]

/-- Constants of rfc6664.py the transcription of the standard has no value for. -/
def others : List String :=
  []

def standard : Standard := ⟨Verif.Rfc6664.asModule, entries, beyond, constants, others⟩

end Rfc6664
end Std
end Verif
