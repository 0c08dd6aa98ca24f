import Verif.Spec.Built
import Verif.Std.Rfc5208
import Verif.Built.Rfc2251
import Verif.Built.Rfc5280
import Verif.Std.Rfc2251
import Verif.Std.Rfc5280

/-! What rfc5208.py implements, where that is not the standard (generated by tools/builtgen.py). -/

namespace Verif
namespace Built
namespace Rfc5208

open Asn1 Verif.Std Spec.X680 Spec.Built

/-- `Version ::=`, changed or supplied -/
def Version : Ty :=
  named [("v1", 0), ("v2", 1)] INTEGER

/-- `Attributes ::=`, changed or supplied -/
def Attributes : Ty :=
  SET_OF Std.Rfc2251.Attribute

/-- `PrivateKeyInfo ::=` -/
def PrivateKeyInfo : Ty :=
  SEQUENCE [
    mandatory "version" Built.Rfc5208.Version,
    mandatory "privateKeyAlgorithm" Std.Rfc5280.AlgorithmIdentifier,
    mandatory "privateKey" Std.Rfc5208.PrivateKey,
    optional "attributes" (implicit .context 0 Built.Rfc5208.Attributes)]

def description : Description :=
  ⟨Verif.Rfc5208.asModule,
   [⟨"rfc5208.Version", Verif.Rfc5208.Version, Built.Rfc5208.Version⟩,
    ⟨"rfc5208.KeyEncryptionAlgorithms", Verif.Rfc5208.KeyEncryptionAlgorithms, Std.Rfc5208.KeyEncryptionAlgorithms⟩,
    ⟨"rfc5208.PrivateKeyAlgorithms", Verif.Rfc5208.PrivateKeyAlgorithms, Std.Rfc5208.PrivateKeyAlgorithms⟩,
    ⟨"rfc5208.EncryptedData", Verif.Rfc5208.EncryptedData, Std.Rfc5208.EncryptedData⟩,
    ⟨"rfc5208.EncryptedPrivateKeyInfo", Verif.Rfc5208.EncryptedPrivateKeyInfo, Std.Rfc5208.EncryptedPrivateKeyInfo⟩,
    ⟨"rfc5208.PrivateKey", Verif.Rfc5208.PrivateKey, Std.Rfc5208.PrivateKey⟩,
    ⟨"rfc5208.Attributes", Verif.Rfc5208.Attributes, Built.Rfc5208.Attributes⟩,
    ⟨"rfc5208.PrivateKeyInfo", Verif.Rfc5208.PrivateKeyInfo, Built.Rfc5208.PrivateKeyInfo⟩]⟩

end Rfc5208
end Built
end Verif
