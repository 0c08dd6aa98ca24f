import Verif.Spec.Built
import Verif.Std.Rfc3739
import Verif.Built.Rfc5280
import Verif.Std.Rfc5280

/-! What rfc3739.py implements, where that is not the standard (generated by tools/builtgen.py). -/

namespace Verif
namespace Built
namespace Rfc3739

open Asn1 Verif.Std Spec.X680 Spec.Built

def description : Description :=
  ⟨Verif.Rfc3739.asModule,
   [⟨"rfc3739.AlgorithmIdentifier", Verif.Rfc3739.AlgorithmIdentifier, Std.Rfc5280.AlgorithmIdentifier⟩,
    ⟨"rfc3739.AttributeType", Verif.Rfc3739.AttributeType, Std.Rfc5280.AttributeType⟩,
    ⟨"rfc3739.DirectoryString", Verif.Rfc3739.DirectoryString, Std.Rfc5280.DirectoryString⟩,
    ⟨"rfc3739.GeneralName", Verif.Rfc3739.GeneralName, Std.Rfc5280.GeneralName⟩,
    ⟨"rfc3739.DateOfBirth", Verif.Rfc3739.DateOfBirth, Std.Rfc3739.DateOfBirth⟩,
    ⟨"rfc3739.PlaceOfBirth", Verif.Rfc3739.PlaceOfBirth, Std.Rfc3739.PlaceOfBirth⟩,
    ⟨"rfc3739.Gender", Verif.Rfc3739.Gender, Std.Rfc3739.Gender⟩,
    ⟨"rfc3739.CountryOfCitizenship", Verif.Rfc3739.CountryOfCitizenship, Std.Rfc3739.CountryOfCitizenship⟩,
    ⟨"rfc3739.CountryOfResidence", Verif.Rfc3739.CountryOfResidence, Std.Rfc3739.CountryOfResidence⟩,
    ⟨"rfc3739.PredefinedBiometricType", Verif.Rfc3739.PredefinedBiometricType, Std.Rfc3739.PredefinedBiometricType⟩,
    ⟨"rfc3739.TypeOfBiometricData", Verif.Rfc3739.TypeOfBiometricData, Std.Rfc3739.TypeOfBiometricData⟩,
    ⟨"rfc3739.BiometricData", Verif.Rfc3739.BiometricData, Std.Rfc3739.BiometricData⟩,
    ⟨"rfc3739.BiometricSyntax", Verif.Rfc3739.BiometricSyntax, Std.Rfc3739.BiometricSyntax⟩,
    ⟨"rfc3739.NameRegistrationAuthorities", Verif.Rfc3739.NameRegistrationAuthorities, Std.Rfc3739.NameRegistrationAuthorities⟩,
    ⟨"rfc3739.QCStatement", Verif.Rfc3739.QCStatement, Std.Rfc3739.QCStatement⟩,
    ⟨"rfc3739.QCStatements", Verif.Rfc3739.QCStatements, Std.Rfc3739.QCStatements⟩,
    ⟨"rfc3739.SemanticsInformation", Verif.Rfc3739.SemanticsInformation, Std.Rfc3739.SemanticsInformation⟩]⟩

end Rfc3739
end Built
end Verif
