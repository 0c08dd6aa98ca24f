import Verif.Spec.Built
import Verif.Std.Rfc5752
import Verif.Built.Rfc5035
import Verif.Std.Rfc5035
import Verif.Std.Rfc5652

/-! What rfc5752.py implements, where that is not the standard (generated by tools/builtgen.py). -/

namespace Verif
namespace Built
namespace Rfc5752

open Asn1 Verif.Std Spec.X680 Spec.Built

/-- `MultipleSignatures ::=` -/
def MultipleSignatures : Ty :=
  SEQUENCE [
    mandatory "bodyHashAlg" Std.Rfc5652.DigestAlgorithmIdentifier,
    mandatory "signAlg" Std.Rfc5652.SignatureAlgorithmIdentifier,
    mandatory "signAttrsHash" Std.Rfc5752.SignAttrsHash,
    optional "cert" Built.Rfc5035.ESSCertIDv2]

def description : Description :=
  ⟨Verif.Rfc5752.asModule,
   [⟨"rfc5752.SignAttrsHash", Verif.Rfc5752.SignAttrsHash, Std.Rfc5752.SignAttrsHash⟩,
    ⟨"rfc5752.MultipleSignatures", Verif.Rfc5752.MultipleSignatures, Built.Rfc5752.MultipleSignatures⟩]⟩

end Rfc5752
end Built
end Verif
