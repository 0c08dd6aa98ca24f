import Verif.Spec.Built
import Verif.Std.Rfc5755
import Verif.Built.Rfc5280
import Verif.Std.Rfc5280
import Verif.Std.Rfc5652

/-! What rfc5755.py implements, where that is not the standard (generated by tools/builtgen.py). -/

namespace Verif
namespace Built
namespace Rfc5755

open Asn1 Verif.Std Spec.X680 Spec.Built

/-- `SecurityCategory ::=`, changed or supplied -/
def SecurityCategory : Ty :=
  SEQUENCE [
    mandatory "type" (implicit .context 0 OBJECT_IDENTIFIER),
    mandatory "value" (primitive .context 1 ANY)]

/-- `Clearance ::=` -/
def Clearance : Ty :=
  SEQUENCE [
    mandatory "policyId" OBJECT_IDENTIFIER,
    default "classList" Std.Rfc5755.ClassList (.bits [false, true]),
    optional "securityCategories" (SET_OF Built.Rfc5755.SecurityCategory)]

/-- `ContentInfo ::=`, changed or supplied -/
def ContentInfo : Ty :=
  Std.Rfc5652.ContentInfo

/-- `Clearance-rfc3281 ::=`, changed or supplied -/
def Clearance_rfc3281 : Ty :=
  SEQUENCE [
    mandatory "policyId" (implicit .context 0 OBJECT_IDENTIFIER),
    default "classList" (implicit .context 1 Std.Rfc5755.ClassList) (.bits [false, true]),
    optional "securityCategories" (implicit .context 2 (SET_OF Built.Rfc5755.SecurityCategory))]

def description : Description :=
  ⟨Verif.Rfc5755.asModule,
   [⟨"rfc5755.ContentInfo", Verif.Rfc5755.ContentInfo, Built.Rfc5755.ContentInfo⟩,
    ⟨"rfc5755.AlgorithmIdentifier", Verif.Rfc5755.AlgorithmIdentifier, Std.Rfc5280.AlgorithmIdentifier⟩,
    ⟨"rfc5755.Attribute", Verif.Rfc5755.Attribute, Std.Rfc5280.Attribute⟩,
    ⟨"rfc5755.AuthorityInfoAccessSyntax", Verif.Rfc5755.AuthorityInfoAccessSyntax, Std.Rfc5280.AuthorityInfoAccessSyntax⟩,
    ⟨"rfc5755.AuthorityKeyIdentifier", Verif.Rfc5755.AuthorityKeyIdentifier, Std.Rfc5280.AuthorityKeyIdentifier⟩,
    ⟨"rfc5755.CertificateSerialNumber", Verif.Rfc5755.CertificateSerialNumber, Std.Rfc5280.CertificateSerialNumber⟩,
    ⟨"rfc5755.CRLDistributionPoints", Verif.Rfc5755.CRLDistributionPoints, Std.Rfc5280.CRLDistributionPoints⟩,
    ⟨"rfc5755.Extensions", Verif.Rfc5755.Extensions, Std.Rfc5280.Extensions⟩,
    ⟨"rfc5755.Extension", Verif.Rfc5755.Extension, Std.Rfc5280.Extension⟩,
    ⟨"rfc5755.GeneralNames", Verif.Rfc5755.GeneralNames, Std.Rfc5280.GeneralNames⟩,
    ⟨"rfc5755.GeneralName", Verif.Rfc5755.GeneralName, Std.Rfc5280.GeneralName⟩,
    ⟨"rfc5755.UniqueIdentifier", Verif.Rfc5755.UniqueIdentifier, Std.Rfc5280.UniqueIdentifier⟩,
    ⟨"rfc5755.AttCertVersion", Verif.Rfc5755.AttCertVersion, Std.Rfc5755.AttCertVersion⟩,
    ⟨"rfc5755.IssuerSerial", Verif.Rfc5755.IssuerSerial, Std.Rfc5755.IssuerSerial⟩,
    ⟨"rfc5755.ObjectDigestInfo", Verif.Rfc5755.ObjectDigestInfo, Std.Rfc5755.ObjectDigestInfo⟩,
    ⟨"rfc5755.Holder", Verif.Rfc5755.Holder, Std.Rfc5755.Holder⟩,
    ⟨"rfc5755.V2Form", Verif.Rfc5755.V2Form, Std.Rfc5755.V2Form⟩,
    ⟨"rfc5755.AttCertIssuer", Verif.Rfc5755.AttCertIssuer, Std.Rfc5755.AttCertIssuer⟩,
    ⟨"rfc5755.AttCertValidityPeriod", Verif.Rfc5755.AttCertValidityPeriod, Std.Rfc5755.AttCertValidityPeriod⟩,
    ⟨"rfc5755.AttributeCertificateInfo", Verif.Rfc5755.AttributeCertificateInfo, Std.Rfc5755.AttributeCertificateInfo⟩,
    ⟨"rfc5755.AttributeCertificate", Verif.Rfc5755.AttributeCertificate, Std.Rfc5755.AttributeCertificate⟩,
    ⟨"rfc5755.TargetCert", Verif.Rfc5755.TargetCert, Std.Rfc5755.TargetCert⟩,
    ⟨"rfc5755.Target", Verif.Rfc5755.Target, Std.Rfc5755.Target⟩,
    ⟨"rfc5755.Targets", Verif.Rfc5755.Targets, Std.Rfc5755.Targets⟩,
    ⟨"rfc5755.ProxyInfo", Verif.Rfc5755.ProxyInfo, Std.Rfc5755.ProxyInfo⟩,
    ⟨"rfc5755.AttrSpec", Verif.Rfc5755.AttrSpec, Std.Rfc5755.AttrSpec⟩,
    ⟨"rfc5755.AAControls", Verif.Rfc5755.AAControls, Std.Rfc5755.AAControls⟩,
    ⟨"rfc5755.SvceAuthInfo", Verif.Rfc5755.SvceAuthInfo, Std.Rfc5755.SvceAuthInfo⟩,
    ⟨"rfc5755.IetfAttrSyntax", Verif.Rfc5755.IetfAttrSyntax, Std.Rfc5755.IetfAttrSyntax⟩,
    ⟨"rfc5755.RoleSyntax", Verif.Rfc5755.RoleSyntax, Std.Rfc5755.RoleSyntax⟩,
    ⟨"rfc5755.ClassList", Verif.Rfc5755.ClassList, Std.Rfc5755.ClassList⟩,
    ⟨"rfc5755.SecurityCategory", Verif.Rfc5755.SecurityCategory, Built.Rfc5755.SecurityCategory⟩,
    ⟨"rfc5755.Clearance", Verif.Rfc5755.Clearance, Built.Rfc5755.Clearance⟩,
    ⟨"rfc5755.Clearance_rfc3281", Verif.Rfc5755.Clearance_rfc3281, Built.Rfc5755.Clearance_rfc3281⟩,
    ⟨"rfc5755.ACClearAttrs", Verif.Rfc5755.ACClearAttrs, Std.Rfc5755.ACClearAttrs⟩]⟩

end Rfc5755
end Built
end Verif
