import Verif.Spec.Built
import Verif.Std.Rfc5914
import Verif.Built.Rfc5280
import Verif.Std.Rfc5280

/-! What rfc5914.py implements, where that is not the standard (generated by tools/builtgen.py). -/

namespace Verif
namespace Built
namespace Rfc5914

open Asn1 Verif.Std Spec.X680 Spec.Built

/-- `CertPathControls ::=` -/
def CertPathControls : Ty :=
  SEQUENCE [
    mandatory "taName" Std.Rfc5280.Name,
    optional "certificate" (implicit .context 0 Std.Rfc5280.Certificate),
    optional "policySet" (implicit .context 1 Built.Rfc5280.CertificatePolicies),
    optional "policyFlags" (implicit .context 2 Std.Rfc5914.CertPolicyFlags),
    optional "nameConstr" (implicit .context 3 Std.Rfc5280.NameConstraints),
    optional "pathLenConstraint" (implicit .context 4 (constrained (RANGE_MAX 0) INTEGER))]

/-- `TrustAnchorInfo ::=` -/
def TrustAnchorInfo : Ty :=
  SEQUENCE [
    default "version" Std.Rfc5914.TrustAnchorInfoVersion (.int 1),
    mandatory "pubKey" Std.Rfc5280.SubjectPublicKeyInfo,
    mandatory "keyId" Std.Rfc5280.KeyIdentifier,
    optional "taTitle" Std.Rfc5914.TrustAnchorTitle,
    optional "certPath" Built.Rfc5914.CertPathControls,
    optional "exts" (explicit .context 1 Std.Rfc5280.Extensions),
    optional "taTitleLangTag" (implicit .context 2 UTF8String)]

/-- `TrustAnchorChoice ::=` -/
def TrustAnchorChoice : Ty :=
  CHOICE [
    mandatory "certificate" Std.Rfc5280.Certificate,
    mandatory "tbsCert" (explicit .context 1 Std.Rfc5280.TBSCertificate),
    mandatory "taInfo" (explicit .context 2 Built.Rfc5914.TrustAnchorInfo)]

/-- `TrustAnchorList ::=` -/
def TrustAnchorList : Ty :=
  constrained (SIZE_MAX 1) (SEQUENCE_OF Built.Rfc5914.TrustAnchorChoice)

def description : Description :=
  ⟨Verif.Rfc5914.asModule,
   [⟨"rfc5914.Certificate", Verif.Rfc5914.Certificate, Std.Rfc5280.Certificate⟩,
    ⟨"rfc5914.Name", Verif.Rfc5914.Name, Std.Rfc5280.Name⟩,
    ⟨"rfc5914.Extensions", Verif.Rfc5914.Extensions, Std.Rfc5280.Extensions⟩,
    ⟨"rfc5914.SubjectPublicKeyInfo", Verif.Rfc5914.SubjectPublicKeyInfo, Std.Rfc5280.SubjectPublicKeyInfo⟩,
    ⟨"rfc5914.TBSCertificate", Verif.Rfc5914.TBSCertificate, Std.Rfc5280.TBSCertificate⟩,
    ⟨"rfc5914.CertificatePolicies", Verif.Rfc5914.CertificatePolicies, Built.Rfc5280.CertificatePolicies⟩,
    ⟨"rfc5914.KeyIdentifier", Verif.Rfc5914.KeyIdentifier, Std.Rfc5280.KeyIdentifier⟩,
    ⟨"rfc5914.NameConstraints", Verif.Rfc5914.NameConstraints, Std.Rfc5280.NameConstraints⟩,
    ⟨"rfc5914.CertPolicyFlags", Verif.Rfc5914.CertPolicyFlags, Std.Rfc5914.CertPolicyFlags⟩,
    ⟨"rfc5914.CertPathControls", Verif.Rfc5914.CertPathControls, Built.Rfc5914.CertPathControls⟩,
    ⟨"rfc5914.TrustAnchorTitle", Verif.Rfc5914.TrustAnchorTitle, Std.Rfc5914.TrustAnchorTitle⟩,
    ⟨"rfc5914.TrustAnchorInfoVersion", Verif.Rfc5914.TrustAnchorInfoVersion, Std.Rfc5914.TrustAnchorInfoVersion⟩,
    ⟨"rfc5914.TrustAnchorInfo", Verif.Rfc5914.TrustAnchorInfo, Built.Rfc5914.TrustAnchorInfo⟩,
    ⟨"rfc5914.TrustAnchorChoice", Verif.Rfc5914.TrustAnchorChoice, Built.Rfc5914.TrustAnchorChoice⟩,
    ⟨"rfc5914.TrustAnchorList", Verif.Rfc5914.TrustAnchorList, Built.Rfc5914.TrustAnchorList⟩]⟩

end Rfc5914
end Built
end Verif
