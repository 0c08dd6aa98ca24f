import Verif.Spec.Built
import Verif.Std.Rfc5697
import Verif.Built.Rfc5280
import Verif.Std.Rfc5280

/-! What rfc5697.py implements, where that is not the standard (generated by tools/builtgen.py). -/

namespace Verif
namespace Built
namespace Rfc5697

open Asn1 Verif.Std Spec.X680 Spec.Built

def description : Description :=
  ⟨Verif.Rfc5697.asModule,
   [⟨"rfc5697.AlgorithmIdentifier", Verif.Rfc5697.AlgorithmIdentifier, Std.Rfc5280.AlgorithmIdentifier⟩,
    ⟨"rfc5697.CertificateSerialNumber", Verif.Rfc5697.CertificateSerialNumber, Std.Rfc5280.CertificateSerialNumber⟩,
    ⟨"rfc5697.GeneralNames", Verif.Rfc5697.GeneralNames, Std.Rfc5280.GeneralNames⟩,
    ⟨"rfc5697.SCVPIssuerSerial", Verif.Rfc5697.SCVPIssuerSerial, Std.Rfc5697.SCVPIssuerSerial⟩,
    ⟨"rfc5697.SCVPCertID", Verif.Rfc5697.SCVPCertID, Std.Rfc5697.SCVPCertID⟩,
    ⟨"rfc5697.OtherCertificates", Verif.Rfc5697.OtherCertificates, Std.Rfc5697.OtherCertificates⟩]⟩

end Rfc5697
end Built
end Verif
