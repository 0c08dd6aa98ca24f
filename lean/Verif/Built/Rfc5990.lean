import Verif.Spec.Built
import Verif.Std.Rfc5990
import Verif.Built.Rfc5280
import Verif.Std.Rfc5280

/-! What rfc5990.py implements, where that is not the standard (generated by tools/builtgen.py). -/

namespace Verif
namespace Built
namespace Rfc5990

open Asn1 Verif.Std Spec.X680 Spec.Built

def description : Description :=
  ⟨Verif.Rfc5990.asModule,
   [⟨"rfc5990.AlgorithmIdentifier", Verif.Rfc5990.AlgorithmIdentifier, Std.Rfc5280.AlgorithmIdentifier⟩,
    ⟨"rfc5990.NullParms", Verif.Rfc5990.NullParms, Std.Rfc5990.NullParms⟩,
    ⟨"rfc5990.Camellia_KeyWrappingScheme", Verif.Rfc5990.Camellia_KeyWrappingScheme, Std.Rfc5990.Camellia_KeyWrappingScheme⟩,
    ⟨"rfc5990.DataEncapsulationMechanism", Verif.Rfc5990.DataEncapsulationMechanism, Std.Rfc5990.DataEncapsulationMechanism⟩,
    ⟨"rfc5990.KDF2_HashFunction", Verif.Rfc5990.KDF2_HashFunction, Std.Rfc5990.KDF2_HashFunction⟩,
    ⟨"rfc5990.KDF3_HashFunction", Verif.Rfc5990.KDF3_HashFunction, Std.Rfc5990.KDF3_HashFunction⟩,
    ⟨"rfc5990.KeyDerivationFunction", Verif.Rfc5990.KeyDerivationFunction, Std.Rfc5990.KeyDerivationFunction⟩,
    ⟨"rfc5990.KeyEncapsulationMechanism", Verif.Rfc5990.KeyEncapsulationMechanism, Std.Rfc5990.KeyEncapsulationMechanism⟩,
    ⟨"rfc5990.X9_SymmetricKeyWrappingScheme", Verif.Rfc5990.X9_SymmetricKeyWrappingScheme, Std.Rfc5990.X9_SymmetricKeyWrappingScheme⟩,
    ⟨"rfc5990.GenericHybridParameters", Verif.Rfc5990.GenericHybridParameters, Std.Rfc5990.GenericHybridParameters⟩,
    ⟨"rfc5990.KeyLength", Verif.Rfc5990.KeyLength, Std.Rfc5990.KeyLength⟩,
    ⟨"rfc5990.RsaKemParameters", Verif.Rfc5990.RsaKemParameters, Std.Rfc5990.RsaKemParameters⟩]⟩

end Rfc5990
end Built
end Verif
