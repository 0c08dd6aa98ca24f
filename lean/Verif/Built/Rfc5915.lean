import Verif.Spec.Built
import Verif.Std.Rfc5915
import Verif.Built.Rfc5480
import Verif.Std.Rfc5480

/-! What rfc5915.py implements, where that is not the standard (generated by tools/builtgen.py). -/

namespace Verif
namespace Built
namespace Rfc5915

open Asn1 Verif.Std Spec.X680 Spec.Built

/-- `ECPrivateKey ::=`, changed or supplied -/
def ECPrivateKey : Ty :=
  SEQUENCE [
    mandatory "version" (named [("ecPrivkeyVer1", 1)] INTEGER),
    mandatory "privateKey" OCTET_STRING,
    optional "parameters" (explicit .context 0 Std.Rfc5480.ECParameters),
    optional "publicKey" (explicit .context 1 BIT_STRING)]

def description : Description :=
  ⟨Verif.Rfc5915.asModule,
   [⟨"rfc5915.ECPrivateKey", Verif.Rfc5915.ECPrivateKey, Built.Rfc5915.ECPrivateKey⟩]⟩

end Rfc5915
end Built
end Verif
