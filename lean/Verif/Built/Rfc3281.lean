import Verif.Spec.Built
import Verif.Std.Rfc3281

/-! What rfc3281.py implements, where that is not the standard (generated by tools/builtgen.py). -/

namespace Verif
namespace Built
namespace Rfc3281

open Asn1 Verif.Std Spec.X680 Spec.Built

/-- `SecurityCategory ::=`, changed or supplied -/
def SecurityCategory : Ty :=
  SEQUENCE [
    mandatory "type" (implicit .context 0 OBJECT_IDENTIFIER),
    mandatory "value" (primitive .context 1 ANY)]

/-- `Clearance ::=` -/
def Clearance : Ty :=
  SEQUENCE [
    mandatory "policyId" (implicit .context 0 OBJECT_IDENTIFIER),
    default "classList" (implicit .context 1 Std.Rfc3281.ClassList) (.bits [false, true]),
    optional "securityCategories" (implicit .context 2 (SET_OF Built.Rfc3281.SecurityCategory))]

def description : Description :=
  ⟨Verif.Rfc3281.asModule,
   [⟨"rfc3281.ObjectDigestInfo", Verif.Rfc3281.ObjectDigestInfo, Std.Rfc3281.ObjectDigestInfo⟩,
    ⟨"rfc3281.IssuerSerial", Verif.Rfc3281.IssuerSerial, Std.Rfc3281.IssuerSerial⟩,
    ⟨"rfc3281.TargetCert", Verif.Rfc3281.TargetCert, Std.Rfc3281.TargetCert⟩,
    ⟨"rfc3281.Target", Verif.Rfc3281.Target, Std.Rfc3281.Target⟩,
    ⟨"rfc3281.Targets", Verif.Rfc3281.Targets, Std.Rfc3281.Targets⟩,
    ⟨"rfc3281.ProxyInfo", Verif.Rfc3281.ProxyInfo, Std.Rfc3281.ProxyInfo⟩,
    ⟨"rfc3281.ClassList", Verif.Rfc3281.ClassList, Std.Rfc3281.ClassList⟩,
    ⟨"rfc3281.SecurityCategory", Verif.Rfc3281.SecurityCategory, Built.Rfc3281.SecurityCategory⟩,
    ⟨"rfc3281.Clearance", Verif.Rfc3281.Clearance, Built.Rfc3281.Clearance⟩,
    ⟨"rfc3281.AttCertVersion", Verif.Rfc3281.AttCertVersion, Std.Rfc3281.AttCertVersion⟩,
    ⟨"rfc3281.AttrSpec", Verif.Rfc3281.AttrSpec, Std.Rfc3281.AttrSpec⟩,
    ⟨"rfc3281.AAControls", Verif.Rfc3281.AAControls, Std.Rfc3281.AAControls⟩,
    ⟨"rfc3281.AttCertValidityPeriod", Verif.Rfc3281.AttCertValidityPeriod, Std.Rfc3281.AttCertValidityPeriod⟩,
    ⟨"rfc3281.V2Form", Verif.Rfc3281.V2Form, Std.Rfc3281.V2Form⟩,
    ⟨"rfc3281.AttCertIssuer", Verif.Rfc3281.AttCertIssuer, Std.Rfc3281.AttCertIssuer⟩,
    ⟨"rfc3281.Holder", Verif.Rfc3281.Holder, Std.Rfc3281.Holder⟩,
    ⟨"rfc3281.AttributeCertificateInfo", Verif.Rfc3281.AttributeCertificateInfo, Std.Rfc3281.AttributeCertificateInfo⟩,
    ⟨"rfc3281.AttributeCertificate", Verif.Rfc3281.AttributeCertificate, Std.Rfc3281.AttributeCertificate⟩,
    ⟨"rfc3281.RoleSyntax", Verif.Rfc3281.RoleSyntax, Std.Rfc3281.RoleSyntax⟩,
    ⟨"rfc3281.ACClearAttrs", Verif.Rfc3281.ACClearAttrs, Std.Rfc3281.ACClearAttrs⟩,
    ⟨"rfc3281.SvceAuthInfo", Verif.Rfc3281.SvceAuthInfo, Std.Rfc3281.SvceAuthInfo⟩,
    ⟨"rfc3281.IetfAttrSyntax", Verif.Rfc3281.IetfAttrSyntax, Std.Rfc3281.IetfAttrSyntax⟩]⟩

end Rfc3281
end Built
end Verif
