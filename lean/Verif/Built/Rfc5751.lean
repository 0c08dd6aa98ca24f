import Verif.Spec.Built
import Verif.Std.Rfc5751
import Verif.Std.Rfc5652

/-! What rfc5751.py implements, where that is not the standard (generated by tools/builtgen.py). -/

namespace Verif
namespace Built
namespace Rfc5751

open Asn1 Verif.Std Spec.X680 Spec.Built

def description : Description :=
  ⟨Verif.Rfc5751.asModule,
   [⟨"rfc5751.IssuerAndSerialNumber", Verif.Rfc5751.IssuerAndSerialNumber, Std.Rfc5652.IssuerAndSerialNumber⟩,
    ⟨"rfc5751.RecipientKeyIdentifier", Verif.Rfc5751.RecipientKeyIdentifier, Std.Rfc5652.RecipientKeyIdentifier⟩,
    ⟨"rfc5751.SubjectKeyIdentifier", Verif.Rfc5751.SubjectKeyIdentifier, Std.Rfc5652.SubjectKeyIdentifier⟩,
    ⟨"rfc5751.SMIMECapability", Verif.Rfc5751.SMIMECapability, Std.Rfc5751.SMIMECapability⟩,
    ⟨"rfc5751.SMIMECapabilities", Verif.Rfc5751.SMIMECapabilities, Std.Rfc5751.SMIMECapabilities⟩,
    ⟨"rfc5751.SMIMECapabilitiesParametersForRC2CBC", Verif.Rfc5751.SMIMECapabilitiesParametersForRC2CBC, Std.Rfc5751.SMIMECapabilitiesParametersForRC2CBC⟩,
    ⟨"rfc5751.SMIMEEncryptionKeyPreference", Verif.Rfc5751.SMIMEEncryptionKeyPreference, Std.Rfc5751.SMIMEEncryptionKeyPreference⟩]⟩

end Rfc5751
end Built
end Verif
