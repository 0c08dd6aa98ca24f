import Verif.Spec.Grade
import Verif.Gen.Rfc3274
import Verif.Std.Rfc5280
import Verif.Std.Rfc5652

/-! The ASN.1 of tools/std/rfc3274.asn1 (generated by tools/stdgen.py). -/

namespace Verif
namespace Std
namespace Rfc3274

open Asn1 Spec.X680

/-- `CompressionAlgorithmIdentifier ::=` -/
def CompressionAlgorithmIdentifier : Ty :=
  Std.Rfc5280.AlgorithmIdentifier

/-- `CompressedData ::=` -/
def CompressedData : Ty :=
  SEQUENCE [
    mandatory "version" Std.Rfc5652.CMSVersion,
    mandatory "compressionAlgorithm" CompressionAlgorithmIdentifier,
    mandatory "encapContentInfo" Std.Rfc5652.EncapsulatedContentInfo]

/-- Classes of rfc3274.py and the types of the standard they implement. -/
def entries : List Entry :=
  [⟨"rfc3274.CompressionAlgorithmIdentifier", Verif.Rfc3274.CompressionAlgorithmIdentifier, CompressionAlgorithmIdentifier, .same, false⟩,
   ⟨"rfc3274.CompressedData", Verif.Rfc3274.CompressedData, CompressedData, .same, false⟩]

/-- Classes of rfc3274.py the transcription of the standard has no type for. -/
def beyond : List String :=
  []

/-- Constants of rfc3274.py and the values the standard gives them. -/
def constants : List Constant :=
  [⟨"rfc3274.id_ct_compressedData", Verif.Rfc3274.id_ct_compressedData, OBJECT_IDENTIFIER, .oid [1, 2, 840, 113549, 1, 9, 16, 1, 9], true⟩,
   ⟨"rfc3274.id_alg_zlibCompress", Verif.Rfc3274.id_alg_zlibCompress, OBJECT_IDENTIFIER, .oid [1, 2, 840, 113549, 1, 9, 16, 3, 8], true⟩,
   ⟨"rfc3274.cpa_zlibCompress", Verif.Rfc3274.cpa_zlibCompress.toObj, Std.Rfc5280.AlgorithmIdentifier, (.record (.ofList [(.oid [1, 2, 840, 113549, 1, 9, 16, 3, 8]), .absent])), true⟩]

/-- Constants of rfc3274.py the transcription of the standard has no value for. -/
def others : List String :=
  []

def standard : Standard := ⟨Verif.Rfc3274.asModule, entries, beyond, constants, others⟩

end Rfc3274
end Std
end Verif
