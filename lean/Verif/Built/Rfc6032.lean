import Verif.Spec.Built
import Verif.Std.Rfc6032

/-! What rfc6032.py implements, where that is not the standard (generated by tools/builtgen.py). -/

namespace Verif
namespace Built
namespace Rfc6032

open Asn1 Verif.Std Spec.X680 Spec.Built

def description : Description :=
  ⟨Verif.Rfc6032.asModule,
   [⟨"rfc6032.ContentDecryptKeyID", Verif.Rfc6032.ContentDecryptKeyID, Std.Rfc6032.ContentDecryptKeyID⟩,
    ⟨"rfc6032.EncryptedKeyPackage", Verif.Rfc6032.EncryptedKeyPackage, Std.Rfc6032.EncryptedKeyPackage⟩]⟩

end Rfc6032
end Built
end Verif
