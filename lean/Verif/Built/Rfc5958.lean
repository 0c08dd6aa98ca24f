import Verif.Spec.Built
import Verif.Std.Rfc5958
import Verif.Built.Rfc5280
import Verif.Std.Rfc5280

/-! What rfc5958.py implements, where that is not the standard (generated by tools/builtgen.py). -/

namespace Verif
namespace Built
namespace Rfc5958

open Asn1 Verif.Std Spec.X680 Spec.Built

/-- `KeyEncryptionAlgorithmIdentifier ::=`, changed or supplied -/
def KeyEncryptionAlgorithmIdentifier : Ty :=
  Std.Rfc5280.AlgorithmIdentifier

def description : Description :=
  ⟨Verif.Rfc5958.asModule,
   [⟨"rfc5958.KeyEncryptionAlgorithmIdentifier", Verif.Rfc5958.KeyEncryptionAlgorithmIdentifier, Built.Rfc5958.KeyEncryptionAlgorithmIdentifier⟩,
    ⟨"rfc5958.PrivateKeyAlgorithmIdentifier", Verif.Rfc5958.PrivateKeyAlgorithmIdentifier, Std.Rfc5958.PrivateKeyAlgorithmIdentifier⟩,
    ⟨"rfc5958.EncryptedData", Verif.Rfc5958.EncryptedData, Std.Rfc5958.EncryptedData⟩,
    ⟨"rfc5958.EncryptedPrivateKeyInfo", Verif.Rfc5958.EncryptedPrivateKeyInfo, Std.Rfc5958.EncryptedPrivateKeyInfo⟩,
    ⟨"rfc5958.Version", Verif.Rfc5958.Version, Std.Rfc5958.Version⟩,
    ⟨"rfc5958.PrivateKey", Verif.Rfc5958.PrivateKey, Std.Rfc5958.PrivateKey⟩,
    ⟨"rfc5958.Attributes", Verif.Rfc5958.Attributes, Std.Rfc5958.Attributes⟩,
    ⟨"rfc5958.PublicKey", Verif.Rfc5958.PublicKey, Std.Rfc5958.PublicKey⟩,
    ⟨"rfc5958.OneAsymmetricKey", Verif.Rfc5958.OneAsymmetricKey, Std.Rfc5958.OneAsymmetricKey⟩,
    ⟨"rfc5958.PrivateKeyInfo", Verif.Rfc5958.PrivateKeyInfo, Std.Rfc5958.PrivateKeyInfo⟩,
    ⟨"rfc5958.AsymmetricKeyPackage", Verif.Rfc5958.AsymmetricKeyPackage, Std.Rfc5958.AsymmetricKeyPackage⟩]⟩

end Rfc5958
end Built
end Verif
