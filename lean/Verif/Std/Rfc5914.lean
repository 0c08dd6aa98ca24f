import Verif.Spec.Grade
import Verif.Gen.Rfc5914
import Verif.Std.Rfc5280

/-! The ASN.1 of tools/std/rfc5914.asn1 (generated by tools/stdgen.py). -/

namespace Verif
namespace Std
namespace Rfc5914

open Asn1 Spec.X680

/-- `TrustAnchorInfoVersion ::=` -/
def TrustAnchorInfoVersion : Ty :=
  named [("v1", 1)] INTEGER

/-- `TrustAnchorTitle ::=` -/
def TrustAnchorTitle : Ty :=
  constrained (SIZE 1 64) UTF8String

/-- `CertPolicyFlags ::=` -/
def CertPolicyFlags : Ty :=
  named [("inhibitPolicyMapping", 0), ("requireExplicitPolicy", 1), ("inhibitAnyPolicy", 2)] BIT_STRING

/-- `CertPathControls ::=` -/
def CertPathControls : Ty :=
  SEQUENCE [
    mandatory "taName" Std.Rfc5280.Name,
    optional "certificate" (implicit .context 0 Std.Rfc5280.Certificate),
    optional "policySet" (implicit .context 1 Std.Rfc5280.CertificatePolicies),
    optional "policyFlags" (implicit .context 2 CertPolicyFlags),
    optional "nameConstr" (implicit .context 3 Std.Rfc5280.NameConstraints),
    optional "pathLenConstraint" (implicit .context 4 (constrained (RANGE_MAX 0) INTEGER))]

/-- `TrustAnchorInfo ::=` -/
def TrustAnchorInfo : Ty :=
  SEQUENCE [
    default "version" TrustAnchorInfoVersion (.int 1),
    mandatory "pubKey" Std.Rfc5280.SubjectPublicKeyInfo,
    mandatory "keyId" Std.Rfc5280.KeyIdentifier,
    optional "taTitle" TrustAnchorTitle,
    optional "certPath" CertPathControls,
    optional "exts" (explicit .context 1 Std.Rfc5280.Extensions),
    optional "taTitleLangTag" (implicit .context 2 UTF8String)]

/-- `TrustAnchorChoice ::=` -/
def TrustAnchorChoice : Ty :=
  CHOICE [
    mandatory "certificate" Std.Rfc5280.Certificate,
    mandatory "tbsCert" (explicit .context 1 Std.Rfc5280.TBSCertificate),
    mandatory "taInfo" (explicit .context 2 TrustAnchorInfo)]

/-- `TrustAnchorList ::=` -/
def TrustAnchorList : Ty :=
  constrained (SIZE_MAX 1) (SEQUENCE_OF TrustAnchorChoice)

/-- Classes of rfc5914.py and the types of the standard they implement. -/
def entries : List Entry :=
  [⟨"rfc5914.Certificate", Verif.Rfc5914.Certificate, Std.Rfc5280.Certificate, .same, false⟩,
   ⟨"rfc5914.Name", Verif.Rfc5914.Name, Std.Rfc5280.Name, .same, false⟩,
   ⟨"rfc5914.Extensions", Verif.Rfc5914.Extensions, Std.Rfc5280.Extensions, .same, false⟩,
   ⟨"rfc5914.SubjectPublicKeyInfo", Verif.Rfc5914.SubjectPublicKeyInfo, Std.Rfc5280.SubjectPublicKeyInfo, .same, false⟩,
   ⟨"rfc5914.TBSCertificate", Verif.Rfc5914.TBSCertificate, Std.Rfc5280.TBSCertificate, .same, false⟩,
   ⟨"rfc5914.CertificatePolicies", Verif.Rfc5914.CertificatePolicies, Std.Rfc5280.CertificatePolicies, .relaxed, false⟩,
   ⟨"rfc5914.KeyIdentifier", Verif.Rfc5914.KeyIdentifier, Std.Rfc5280.KeyIdentifier, .same, false⟩,
   ⟨"rfc5914.NameConstraints", Verif.Rfc5914.NameConstraints, Std.Rfc5280.NameConstraints, .same, false⟩,
   ⟨"rfc5914.CertPolicyFlags", Verif.Rfc5914.CertPolicyFlags, CertPolicyFlags, .same, false⟩,
   ⟨"rfc5914.CertPathControls", Verif.Rfc5914.CertPathControls, CertPathControls, .relaxed, false⟩,
   ⟨"rfc5914.TrustAnchorTitle", Verif.Rfc5914.TrustAnchorTitle, TrustAnchorTitle, .same, false⟩,
   ⟨"rfc5914.TrustAnchorInfoVersion", Verif.Rfc5914.TrustAnchorInfoVersion, TrustAnchorInfoVersion, .same, false⟩,
   ⟨"rfc5914.TrustAnchorInfo", Verif.Rfc5914.TrustAnchorInfo, TrustAnchorInfo, .relaxed, false⟩,
   ⟨"rfc5914.TrustAnchorChoice", Verif.Rfc5914.TrustAnchorChoice, TrustAnchorChoice, .relaxed, false⟩,
   ⟨"rfc5914.TrustAnchorList", Verif.Rfc5914.TrustAnchorList, TrustAnchorList, .relaxed, false⟩]

/-- Classes of rfc5914.py the transcription of the standard has no type for. -/
def beyond : List String :=
  []

/-- Constants of rfc5914.py and the values the standard gives them. -/
def constants : List Constant :=
  [⟨"rfc5914.id_ct_trustAnchorList", Verif.Rfc5914.id_ct_trustAnchorList, OBJECT_IDENTIFIER, .oid [1, 2, 840, 113549, 1, 9, 16, 1, 34], true⟩]

/-- Constants of rfc5914.py the transcription of the standard has no value for. -/
def others : List String :=
  []

def standard : Standard := ⟨Verif.Rfc5914.asModule, entries, beyond, constants, others⟩

end Rfc5914
end Std
end Verif
