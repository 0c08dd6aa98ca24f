import Verif.Spec.Grade
import Verif.Gen.Rfc6211
import Verif.Std.Rfc5652

/-! The ASN.1 of tools/std/rfc6211.asn1 (generated by tools/stdgen.py). -/

namespace Verif
namespace Std
namespace Rfc6211

open Asn1 Spec.X680

/-- `CMSAlgorithmProtection ::=` -/
def CMSAlgorithmProtection : Ty :=
  constrained (EITHER (WITH_COMPONENTS [("signatureAlgorithm", true), ("macAlgorithm", false)]) (WITH_COMPONENTS [("signatureAlgorithm", false), ("macAlgorithm", true)])) (SEQUENCE [
    mandatory "digestAlgorithm" Std.Rfc5652.DigestAlgorithmIdentifier,
    optional "signatureAlgorithm" (implicit .context 1 Std.Rfc5652.SignatureAlgorithmIdentifier),
    optional "macAlgorithm" (implicit .context 2 Std.Rfc5652.MessageAuthenticationCodeAlgorithm)])

/-- Classes of rfc6211.py and the types of the standard they implement. -/
def entries : List Entry :=
  [⟨"rfc6211.DigestAlgorithmIdentifier", Verif.Rfc6211.DigestAlgorithmIdentifier, Std.Rfc5652.DigestAlgorithmIdentifier, .same, false⟩,
   ⟨"rfc6211.MessageAuthenticationCodeAlgorithm", Verif.Rfc6211.MessageAuthenticationCodeAlgorithm, Std.Rfc5652.MessageAuthenticationCodeAlgorithm, .same, false⟩,
   ⟨"rfc6211.SignatureAlgorithmIdentifier", Verif.Rfc6211.SignatureAlgorithmIdentifier, Std.Rfc5652.SignatureAlgorithmIdentifier, .same, false⟩,
   ⟨"rfc6211.CMSAlgorithmProtection", Verif.Rfc6211.CMSAlgorithmProtection, CMSAlgorithmProtection, .same, false⟩]

/-- Classes of rfc6211.py the transcription of the standard has no type for. -/
def beyond : List String :=
  []

/-- Constants of rfc6211.py and the values the standard gives them. -/
def constants : List Constant :=
  [⟨"rfc6211.id_aa_cmsAlgorithmProtect", Verif.Rfc6211.id_aa_cmsAlgorithmProtect, OBJECT_IDENTIFIER, .oid [1, 2, 840, 113549, 1, 9, 52], true⟩]

/-- Constants of rfc6211.py the transcription of the standard has no value for. -/
def others : List String :=
  ["rfc6211.aa_cmsAlgorithmProtection"]

def standard : Standard := ⟨Verif.Rfc6211.asModule, entries, beyond, constants, others⟩

end Rfc6211
end Std
end Verif
