import Verif.Spec.Grade
import Verif.Gen.Rfc3739
import Verif.Std.Rfc5280

/-! The ASN.1 of tools/std/rfc3739.asn1 (generated by tools/stdgen.py). -/

namespace Verif
namespace Std
namespace Rfc3739

open Asn1 Spec.X680

/-- `DateOfBirth ::=` -/
def DateOfBirth : Ty :=
  GeneralizedTime

/-- `PlaceOfBirth ::=` -/
def PlaceOfBirth : Ty :=
  Std.Rfc5280.DirectoryString

/-- `Gender ::=` -/
def Gender : Ty :=
  constrained (VALUES [.str "M".toList, .str "F".toList, .str "m".toList, .str "f".toList]) (constrained (SIZE 1 1) PrintableString)

/-- `CountryOfCitizenship ::=` -/
def CountryOfCitizenship : Ty :=
  constrained (SIZE 2 2) PrintableString

/-- `CountryOfResidence ::=` -/
def CountryOfResidence : Ty :=
  constrained (SIZE 2 2) PrintableString

/-- `PredefinedBiometricType ::=` -/
def PredefinedBiometricType : Ty :=
  constrained (VALUES [.int 0, .int 1]) (named [("picture", 0), ("handwritten-signature", 1)] INTEGER)

/-- `TypeOfBiometricData ::=` -/
def TypeOfBiometricData : Ty :=
  CHOICE [
    mandatory "predefinedBiometricType" PredefinedBiometricType,
    mandatory "biometricDataOid" OBJECT_IDENTIFIER]

/-- `BiometricData ::=` -/
def BiometricData : Ty :=
  SEQUENCE [
    mandatory "typeOfBiometricData" TypeOfBiometricData,
    mandatory "hashAlgorithm" Std.Rfc5280.AlgorithmIdentifier,
    mandatory "biometricDataHash" OCTET_STRING,
    optional "sourceDataUri" IA5String]

/-- `BiometricSyntax ::=` -/
def BiometricSyntax : Ty :=
  SEQUENCE_OF BiometricData

/-- `QCStatement ::=` -/
def QCStatement : Ty :=
  SEQUENCE [
    mandatory "statementId" OBJECT_IDENTIFIER,
    optional "statementInfo" ANY]

/-- `QCStatements ::=` -/
def QCStatements : Ty :=
  SEQUENCE_OF QCStatement

/-- `NameRegistrationAuthorities ::=` -/
def NameRegistrationAuthorities : Ty :=
  constrained (SIZE_MAX 1) (SEQUENCE_OF Std.Rfc5280.GeneralName)

/-- `SemanticsInformation ::=` -/
def SemanticsInformation : Ty :=
  constrained (EITHER (WITH_COMPONENTS [("semanticsIndentifier", true)]) (WITH_COMPONENTS [("nameRegistrationAuthorities", true)])) (SEQUENCE [
    optional "semanticsIndentifier" OBJECT_IDENTIFIER,
    optional "nameRegistrationAuthorities" NameRegistrationAuthorities])

/-- Classes of rfc3739.py and the types of the standard they implement. -/
def entries : List Entry :=
  [⟨"rfc3739.AlgorithmIdentifier", Verif.Rfc3739.AlgorithmIdentifier, Std.Rfc5280.AlgorithmIdentifier, .same, false⟩,
   ⟨"rfc3739.AttributeType", Verif.Rfc3739.AttributeType, Std.Rfc5280.AttributeType, .same, false⟩,
   ⟨"rfc3739.DirectoryString", Verif.Rfc3739.DirectoryString, Std.Rfc5280.DirectoryString, .same, false⟩,
   ⟨"rfc3739.GeneralName", Verif.Rfc3739.GeneralName, Std.Rfc5280.GeneralName, .same, false⟩,
   ⟨"rfc3739.DateOfBirth", Verif.Rfc3739.DateOfBirth, DateOfBirth, .same, false⟩,
   ⟨"rfc3739.PlaceOfBirth", Verif.Rfc3739.PlaceOfBirth, PlaceOfBirth, .same, false⟩,
   ⟨"rfc3739.Gender", Verif.Rfc3739.Gender, Gender, .same, false⟩,
   ⟨"rfc3739.CountryOfCitizenship", Verif.Rfc3739.CountryOfCitizenship, CountryOfCitizenship, .same, false⟩,
   ⟨"rfc3739.CountryOfResidence", Verif.Rfc3739.CountryOfResidence, CountryOfResidence, .same, false⟩,
   ⟨"rfc3739.PredefinedBiometricType", Verif.Rfc3739.PredefinedBiometricType, PredefinedBiometricType, .same, false⟩,
   ⟨"rfc3739.TypeOfBiometricData", Verif.Rfc3739.TypeOfBiometricData, TypeOfBiometricData, .same, false⟩,
   ⟨"rfc3739.BiometricData", Verif.Rfc3739.BiometricData, BiometricData, .same, false⟩,
   ⟨"rfc3739.BiometricSyntax", Verif.Rfc3739.BiometricSyntax, BiometricSyntax, .same, false⟩,
   ⟨"rfc3739.NameRegistrationAuthorities", Verif.Rfc3739.NameRegistrationAuthorities, NameRegistrationAuthorities, .same, false⟩,
   ⟨"rfc3739.QCStatement", Verif.Rfc3739.QCStatement, QCStatement, .same, false⟩,
   ⟨"rfc3739.QCStatements", Verif.Rfc3739.QCStatements, QCStatements, .same, false⟩,
   ⟨"rfc3739.SemanticsInformation", Verif.Rfc3739.SemanticsInformation, SemanticsInformation, .same, false⟩]

/-- Classes of rfc3739.py the transcription of the standard has no type for. -/
def beyond : List String :=
  []

/-- Constants of rfc3739.py and the values the standard gives them. -/
def constants : List Constant :=
  [⟨"rfc3739.id_pkix", Verif.Rfc3739.id_pkix, OBJECT_IDENTIFIER, .oid [1, 3, 6, 1, 5, 5, 7], true⟩,
   ⟨"rfc3739.id_pe", Verif.Rfc3739.id_pe, OBJECT_IDENTIFIER, .oid [1, 3, 6, 1, 5, 5, 7, 1], true⟩,
   ⟨"rfc3739.id_pda", Verif.Rfc3739.id_pda, OBJECT_IDENTIFIER, .oid [1, 3, 6, 1, 5, 5, 7, 9], true⟩,
   ⟨"rfc3739.id_qcs", Verif.Rfc3739.id_qcs, OBJECT_IDENTIFIER, .oid [1, 3, 6, 1, 5, 5, 7, 11], true⟩,
   ⟨"rfc3739.id_pda_dateOfBirth", Verif.Rfc3739.id_pda_dateOfBirth, OBJECT_IDENTIFIER, .oid [1, 3, 6, 1, 5, 5, 7, 9, 1], true⟩,
   ⟨"rfc3739.id_pda_placeOfBirth", Verif.Rfc3739.id_pda_placeOfBirth, OBJECT_IDENTIFIER, .oid [1, 3, 6, 1, 5, 5, 7, 9, 2], true⟩,
   ⟨"rfc3739.id_pda_gender", Verif.Rfc3739.id_pda_gender, OBJECT_IDENTIFIER, .oid [1, 3, 6, 1, 5, 5, 7, 9, 3], true⟩,
   ⟨"rfc3739.id_pda_countryOfCitizenship", Verif.Rfc3739.id_pda_countryOfCitizenship, OBJECT_IDENTIFIER, .oid [1, 3, 6, 1, 5, 5, 7, 9, 4], true⟩,
   ⟨"rfc3739.id_pda_countryOfResidence", Verif.Rfc3739.id_pda_countryOfResidence, OBJECT_IDENTIFIER, .oid [1, 3, 6, 1, 5, 5, 7, 9, 5], true⟩,
   ⟨"rfc3739.id_pe_biometricInfo", Verif.Rfc3739.id_pe_biometricInfo, OBJECT_IDENTIFIER, .oid [1, 3, 6, 1, 5, 5, 7, 1, 2], true⟩,
   ⟨"rfc3739.id_pe_qcStatements", Verif.Rfc3739.id_pe_qcStatements, OBJECT_IDENTIFIER, .oid [1, 3, 6, 1, 5, 5, 7, 1, 3], true⟩,
   ⟨"rfc3739.id_qcs_pkixQCSyntax_v1", Verif.Rfc3739.id_qcs_pkixQCSyntax_v1, OBJECT_IDENTIFIER, .oid [1, 3, 6, 1, 5, 5, 7, 11, 1], true⟩,
   ⟨"rfc3739.id_qcs_pkixQCSyntax_v2", Verif.Rfc3739.id_qcs_pkixQCSyntax_v2, OBJECT_IDENTIFIER, .oid [1, 3, 6, 1, 5, 5, 7, 11, 2], true⟩]

/-- Constants of rfc3739.py the transcription of the standard has no value for. -/
def others : List String :=
  []

def standard : Standard := ⟨Verif.Rfc3739.asModule, entries, beyond, constants, others⟩

end Rfc3739
end Std
end Verif
