import Verif.Spec.Grade
import Verif.Gen.Rfc3560
import Verif.Std.Rfc4055

/-! The ASN.1 of tools/std/rfc3560.asn1 (generated by tools/stdgen.py). -/

namespace Verif
namespace Std
namespace Rfc3560

open Asn1 Spec.X680

/-- Classes of rfc3560.py and the types of the standard they implement. -/
def entries : List Entry :=
  [⟨"rfc3560.RSAES_OAEP_params", Verif.Rfc3560.RSAES_OAEP_params, Std.Rfc4055.RSAES_OAEP_params, (.changed [48, 0]), false⟩]

/-- Classes of rfc3560.py the transcription of the standard has no type for. -/
def beyond : List String :=
  []

/-- Constants of rfc3560.py and the values the standard gives them. -/
def constants : List Constant :=
  [⟨"rfc3560.id_sha1", Verif.Rfc3560.id_sha1, OBJECT_IDENTIFIER, .oid [1, 3, 14, 3, 2, 26], true⟩,
   ⟨"rfc3560.id_sha256", Verif.Rfc3560.id_sha256, OBJECT_IDENTIFIER, .oid [2, 16, 840, 1, 101, 3, 4, 2, 1], true⟩,
   ⟨"rfc3560.id_sha384", Verif.Rfc3560.id_sha384, OBJECT_IDENTIFIER, .oid [2, 16, 840, 1, 101, 3, 4, 2, 2], true⟩,
   ⟨"rfc3560.id_sha512", Verif.Rfc3560.id_sha512, OBJECT_IDENTIFIER, .oid [2, 16, 840, 1, 101, 3, 4, 2, 3], true⟩,
   ⟨"rfc3560.id_mgf1", Verif.Rfc3560.id_mgf1, OBJECT_IDENTIFIER, .oid [1, 2, 840, 113549, 1, 1, 8], true⟩,
   ⟨"rfc3560.rsaEncryption", Verif.Rfc3560.rsaEncryption, OBJECT_IDENTIFIER, .oid [1, 2, 840, 113549, 1, 1, 1], true⟩,
   ⟨"rfc3560.id_RSAES_OAEP", Verif.Rfc3560.id_RSAES_OAEP, OBJECT_IDENTIFIER, .oid [1, 2, 840, 113549, 1, 1, 7], true⟩,
   ⟨"rfc3560.id_pSpecified", Verif.Rfc3560.id_pSpecified, OBJECT_IDENTIFIER, .oid [1, 2, 840, 113549, 1, 1, 9], true⟩,
   ⟨"rfc3560.rSAES_OAEP_Default_Params", Verif.Rfc3560.rSAES_OAEP_Default_Params, Std.Rfc4055.RSAES_OAEP_params, (.record (.ofList [(.record (.ofList [(.oid [1, 3, 14, 3, 2, 26]), (holding NULL .null)])), (.record (.ofList [(.oid [1, 2, 840, 113549, 1, 1, 8]), (holding Std.Rfc5280.AlgorithmIdentifier (.record (.ofList [(.oid [1, 3, 14, 3, 2, 26]), (holding NULL .null)])))])), (.record (.ofList [(.oid [1, 2, 840, 113549, 1, 1, 9]), (holding OCTET_STRING (.octets []))]))])), false⟩,
   ⟨"rfc3560.sha1Identifier", Verif.Rfc3560.sha1Identifier.toObj, Std.Rfc5280.AlgorithmIdentifier, (.record (.ofList [(.oid [1, 3, 14, 3, 2, 26]), (holding NULL .null)])), true⟩,
   ⟨"rfc3560.sha256Identifier", Verif.Rfc3560.sha256Identifier.toObj, Std.Rfc5280.AlgorithmIdentifier, (.record (.ofList [(.oid [2, 16, 840, 1, 101, 3, 4, 2, 1]), (holding NULL .null)])), true⟩,
   ⟨"rfc3560.sha384Identifier", Verif.Rfc3560.sha384Identifier.toObj, Std.Rfc5280.AlgorithmIdentifier, (.record (.ofList [(.oid [2, 16, 840, 1, 101, 3, 4, 2, 2]), (holding NULL .null)])), true⟩,
   ⟨"rfc3560.sha512Identifier", Verif.Rfc3560.sha512Identifier.toObj, Std.Rfc5280.AlgorithmIdentifier, (.record (.ofList [(.oid [2, 16, 840, 1, 101, 3, 4, 2, 3]), (holding NULL .null)])), true⟩,
   ⟨"rfc3560.mgf1SHA1Identifier", Verif.Rfc3560.mgf1SHA1Identifier.toObj, Std.Rfc5280.AlgorithmIdentifier, (.record (.ofList [(.oid [1, 2, 840, 113549, 1, 1, 8]), (holding Std.Rfc5280.AlgorithmIdentifier (.record (.ofList [(.oid [1, 3, 14, 3, 2, 26]), (holding NULL .null)])))])), true⟩,
   ⟨"rfc3560.mgf1SHA256Identifier", Verif.Rfc3560.mgf1SHA256Identifier.toObj, Std.Rfc5280.AlgorithmIdentifier, (.record (.ofList [(.oid [1, 2, 840, 113549, 1, 1, 8]), (holding Std.Rfc5280.AlgorithmIdentifier (.record (.ofList [(.oid [2, 16, 840, 1, 101, 3, 4, 2, 1]), (holding NULL .null)])))])), true⟩,
   ⟨"rfc3560.mgf1SHA384Identifier", Verif.Rfc3560.mgf1SHA384Identifier.toObj, Std.Rfc5280.AlgorithmIdentifier, (.record (.ofList [(.oid [1, 2, 840, 113549, 1, 1, 8]), (holding Std.Rfc5280.AlgorithmIdentifier (.record (.ofList [(.oid [2, 16, 840, 1, 101, 3, 4, 2, 2]), (holding NULL .null)])))])), true⟩,
   ⟨"rfc3560.mgf1SHA512Identifier", Verif.Rfc3560.mgf1SHA512Identifier.toObj, Std.Rfc5280.AlgorithmIdentifier, (.record (.ofList [(.oid [1, 2, 840, 113549, 1, 1, 8]), (holding Std.Rfc5280.AlgorithmIdentifier (.record (.ofList [(.oid [2, 16, 840, 1, 101, 3, 4, 2, 3]), (holding NULL .null)])))])), true⟩,
   ⟨"rfc3560.pSpecifiedEmptyIdentifier", Verif.Rfc3560.pSpecifiedEmptyIdentifier.toObj, Std.Rfc5280.AlgorithmIdentifier, (.record (.ofList [(.oid [1, 2, 840, 113549, 1, 1, 9]), (holding OCTET_STRING (.octets []))])), true⟩,
   ⟨"rfc3560.rSAES_OAEP_Default_Identifier", Verif.Rfc3560.rSAES_OAEP_Default_Identifier.toObj, Std.Rfc5280.AlgorithmIdentifier, (.record (.ofList [(.oid [1, 2, 840, 113549, 1, 1, 7]), (holding Std.Rfc4055.RSAES_OAEP_params (.record (.ofList [(.record (.ofList [(.oid [1, 3, 14, 3, 2, 26]), (holding NULL .null)])), (.record (.ofList [(.oid [1, 2, 840, 113549, 1, 1, 8]), (holding Std.Rfc5280.AlgorithmIdentifier (.record (.ofList [(.oid [1, 3, 14, 3, 2, 26]), (holding NULL .null)])))])), (.record (.ofList [(.oid [1, 2, 840, 113549, 1, 1, 9]), (holding OCTET_STRING (.octets []))]))])))])), false⟩,
   ⟨"rfc3560.rSAES_OAEP_SHA256_Params", Verif.Rfc3560.rSAES_OAEP_SHA256_Params.toObj, Std.Rfc4055.RSAES_OAEP_params, (.record (.ofList [(.record (.ofList [(.oid [2, 16, 840, 1, 101, 3, 4, 2, 1]), (holding NULL .null)])), (.record (.ofList [(.oid [1, 2, 840, 113549, 1, 1, 8]), (holding Std.Rfc5280.AlgorithmIdentifier (.record (.ofList [(.oid [2, 16, 840, 1, 101, 3, 4, 2, 1]), (holding NULL .null)])))])), (.record (.ofList [(.oid [1, 2, 840, 113549, 1, 1, 9]), (holding OCTET_STRING (.octets []))]))])), true⟩,
   ⟨"rfc3560.rSAES_OAEP_SHA256_Identifier", Verif.Rfc3560.rSAES_OAEP_SHA256_Identifier.toObj, Std.Rfc5280.AlgorithmIdentifier, (.record (.ofList [(.oid [1, 2, 840, 113549, 1, 1, 7]), (holding Std.Rfc4055.RSAES_OAEP_params (.record (.ofList [(.record (.ofList [(.oid [2, 16, 840, 1, 101, 3, 4, 2, 1]), (holding NULL .null)])), (.record (.ofList [(.oid [1, 2, 840, 113549, 1, 1, 8]), (holding Std.Rfc5280.AlgorithmIdentifier (.record (.ofList [(.oid [2, 16, 840, 1, 101, 3, 4, 2, 1]), (holding NULL .null)])))])), (.record (.ofList [(.oid [1, 2, 840, 113549, 1, 1, 9]), (holding OCTET_STRING (.octets []))]))])))])), true⟩,
   ⟨"rfc3560.rSAES_OAEP_SHA384_Params", Verif.Rfc3560.rSAES_OAEP_SHA384_Params.toObj, Std.Rfc4055.RSAES_OAEP_params, (.record (.ofList [(.record (.ofList [(.oid [2, 16, 840, 1, 101, 3, 4, 2, 2]), (holding NULL .null)])), (.record (.ofList [(.oid [1, 2, 840, 113549, 1, 1, 8]), (holding Std.Rfc5280.AlgorithmIdentifier (.record (.ofList [(.oid [2, 16, 840, 1, 101, 3, 4, 2, 2]), (holding NULL .null)])))])), (.record (.ofList [(.oid [1, 2, 840, 113549, 1, 1, 9]), (holding OCTET_STRING (.octets []))]))])), true⟩,
   ⟨"rfc3560.rSAES_OAEP_SHA384_Identifier", Verif.Rfc3560.rSAES_OAEP_SHA384_Identifier.toObj, Std.Rfc5280.AlgorithmIdentifier, (.record (.ofList [(.oid [1, 2, 840, 113549, 1, 1, 7]), (holding Std.Rfc4055.RSAES_OAEP_params (.record (.ofList [(.record (.ofList [(.oid [2, 16, 840, 1, 101, 3, 4, 2, 2]), (holding NULL .null)])), (.record (.ofList [(.oid [1, 2, 840, 113549, 1, 1, 8]), (holding Std.Rfc5280.AlgorithmIdentifier (.record (.ofList [(.oid [2, 16, 840, 1, 101, 3, 4, 2, 2]), (holding NULL .null)])))])), (.record (.ofList [(.oid [1, 2, 840, 113549, 1, 1, 9]), (holding OCTET_STRING (.octets []))]))])))])), true⟩,
   ⟨"rfc3560.rSAES_OAEP_SHA512_Params", Verif.Rfc3560.rSAES_OAEP_SHA512_Params.toObj, Std.Rfc4055.RSAES_OAEP_params, (.record (.ofList [(.record (.ofList [(.oid [2, 16, 840, 1, 101, 3, 4, 2, 3]), (holding NULL .null)])), (.record (.ofList [(.oid [1, 2, 840, 113549, 1, 1, 8]), (holding Std.Rfc5280.AlgorithmIdentifier (.record (.ofList [(.oid [2, 16, 840, 1, 101, 3, 4, 2, 3]), (holding NULL .null)])))])), (.record (.ofList [(.oid [1, 2, 840, 113549, 1, 1, 9]), (holding OCTET_STRING (.octets []))]))])), true⟩,
   ⟨"rfc3560.rSAES_OAEP_SHA512_Identifier", Verif.Rfc3560.rSAES_OAEP_SHA512_Identifier.toObj, Std.Rfc5280.AlgorithmIdentifier, (.record (.ofList [(.oid [1, 2, 840, 113549, 1, 1, 7]), (holding Std.Rfc4055.RSAES_OAEP_params (.record (.ofList [(.record (.ofList [(.oid [2, 16, 840, 1, 101, 3, 4, 2, 3]), (holding NULL .null)])), (.record (.ofList [(.oid [1, 2, 840, 113549, 1, 1, 8]), (holding Std.Rfc5280.AlgorithmIdentifier (.record (.ofList [(.oid [2, 16, 840, 1, 101, 3, 4, 2, 3]), (holding NULL .null)])))])), (.record (.ofList [(.oid [1, 2, 840, 113549, 1, 1, 9]), (holding OCTET_STRING (.octets []))]))])))])), true⟩]

/-- Constants of rfc3560.py the transcription of the standard has no value for. -/
def others : List String :=
  []

def standard : Standard := ⟨Verif.Rfc3560.asModule, entries, beyond, constants, others⟩

end Rfc3560
end Std
end Verif
