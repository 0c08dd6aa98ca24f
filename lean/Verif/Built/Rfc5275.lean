import Verif.Spec.Built
import Verif.Std.Rfc5275
import Verif.Built.Rfc5280
import Verif.Built.Rfc5755
import Verif.Std.Rfc5280
import Verif.Std.Rfc5652
import Verif.Std.Rfc5751
import Verif.Std.Rfc5755

/-! What rfc5275.py implements, where that is not the standard (generated by tools/builtgen.py). -/

namespace Verif
namespace Built
namespace Rfc5275

open Asn1 Verif.Std Spec.X680 Spec.Built

def description : Description :=
  ⟨Verif.Rfc5275.asModule,
   [⟨"rfc5275.AlgorithmIdentifier", Verif.Rfc5275.AlgorithmIdentifier, Std.Rfc5280.AlgorithmIdentifier⟩,
    ⟨"rfc5275.Certificate", Verif.Rfc5275.Certificate, Std.Rfc5280.Certificate⟩,
    ⟨"rfc5275.GeneralName", Verif.Rfc5275.GeneralName, Std.Rfc5280.GeneralName⟩,
    ⟨"rfc5275.CertificateSet", Verif.Rfc5275.CertificateSet, Std.Rfc5652.CertificateSet⟩,
    ⟨"rfc5275.KEKIdentifier", Verif.Rfc5275.KEKIdentifier, Std.Rfc5652.KEKIdentifier⟩,
    ⟨"rfc5275.RecipientInfos", Verif.Rfc5275.RecipientInfos, Std.Rfc5652.RecipientInfos⟩,
    ⟨"rfc5275.SMIMECapability", Verif.Rfc5275.SMIMECapability, Std.Rfc5751.SMIMECapability⟩,
    ⟨"rfc5275.AttributeCertificate", Verif.Rfc5275.AttributeCertificate, Std.Rfc5755.AttributeCertificate⟩,
    ⟨"rfc5275.Certificates", Verif.Rfc5275.Certificates, Std.Rfc5275.Certificates⟩,
    ⟨"rfc5275.GLInfo", Verif.Rfc5275.GLInfo, Std.Rfc5275.GLInfo⟩,
    ⟨"rfc5275.GLOwnerInfo", Verif.Rfc5275.GLOwnerInfo, Std.Rfc5275.GLOwnerInfo⟩,
    ⟨"rfc5275.GLAdministration", Verif.Rfc5275.GLAdministration, Std.Rfc5275.GLAdministration⟩,
    ⟨"rfc5275.GLKeyAttributes", Verif.Rfc5275.GLKeyAttributes, Std.Rfc5275.GLKeyAttributes⟩,
    ⟨"rfc5275.GLUseKEK", Verif.Rfc5275.GLUseKEK, Std.Rfc5275.GLUseKEK⟩,
    ⟨"rfc5275.DeleteGL", Verif.Rfc5275.DeleteGL, Std.Rfc5275.DeleteGL⟩,
    ⟨"rfc5275.GLMember", Verif.Rfc5275.GLMember, Std.Rfc5275.GLMember⟩,
    ⟨"rfc5275.GLAddMember", Verif.Rfc5275.GLAddMember, Std.Rfc5275.GLAddMember⟩,
    ⟨"rfc5275.GLDeleteMember", Verif.Rfc5275.GLDeleteMember, Std.Rfc5275.GLDeleteMember⟩,
    ⟨"rfc5275.GLNewKeyAttributes", Verif.Rfc5275.GLNewKeyAttributes, Std.Rfc5275.GLNewKeyAttributes⟩,
    ⟨"rfc5275.GLRekey", Verif.Rfc5275.GLRekey, Std.Rfc5275.GLRekey⟩,
    ⟨"rfc5275.GLOwnerAdministration", Verif.Rfc5275.GLOwnerAdministration, Std.Rfc5275.GLOwnerAdministration⟩,
    ⟨"rfc5275.GLKCompromise", Verif.Rfc5275.GLKCompromise, Std.Rfc5275.GLKCompromise⟩,
    ⟨"rfc5275.Date", Verif.Rfc5275.Date, Std.Rfc5275.Date⟩,
    ⟨"rfc5275.GLKRefresh", Verif.Rfc5275.GLKRefresh, Std.Rfc5275.GLKRefresh⟩,
    ⟨"rfc5275.GLAQueryRequest", Verif.Rfc5275.GLAQueryRequest, Std.Rfc5275.GLAQueryRequest⟩,
    ⟨"rfc5275.GLAQueryResponse", Verif.Rfc5275.GLAQueryResponse, Std.Rfc5275.GLAQueryResponse⟩,
    ⟨"rfc5275.SKDAlgRequest", Verif.Rfc5275.SKDAlgRequest, Std.Rfc5275.SKDAlgRequest⟩,
    ⟨"rfc5275.SMIMECapabilities", Verif.Rfc5275.SMIMECapabilities, Std.Rfc5751.SMIMECapabilities⟩,
    ⟨"rfc5275.GLManageCert", Verif.Rfc5275.GLManageCert, Std.Rfc5275.GLManageCert⟩,
    ⟨"rfc5275.GLKey", Verif.Rfc5275.GLKey, Std.Rfc5275.GLKey⟩,
    ⟨"rfc5275.SKDFailInfo", Verif.Rfc5275.SKDFailInfo, Std.Rfc5275.SKDFailInfo⟩]⟩

end Rfc5275
end Built
end Verif
