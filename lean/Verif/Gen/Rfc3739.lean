import Verif.Py.Obj
import Verif.Gen.Rfc5280

/-! Transcription of /repo/pyasn1_modules/rfc3739.py (generated by tools/gen.py). -/

namespace Verif
namespace Rfc3739

/-- rfc3739.py:27 -/
def MAX : Py.Bound :=
  .inf

/-- rfc3739.py:32 -/
def qcStatementMap : Py.Entries :=
  []

/-- rfc3739.py:37 alias of `rfc5280.AlgorithmIdentifier` -/
def AlgorithmIdentifier : Py.Obj :=
  Rfc5280.AlgorithmIdentifier

/-- rfc3739.py:39 alias of `rfc5280.AttributeType` -/
def AttributeType : Py.Obj :=
  Rfc5280.AttributeType

/-- rfc3739.py:41 alias of `rfc5280.DirectoryString` -/
def DirectoryString : Py.Obj :=
  Rfc5280.DirectoryString

/-- rfc3739.py:43 alias of `rfc5280.GeneralName` -/
def GeneralName : Py.Obj :=
  Rfc5280.GeneralName

/-- rfc3739.py:45 alias of `rfc5280.id_pkix` -/
def id_pkix : Py.Obj :=
  Rfc5280.id_pkix

/-- rfc3739.py:47 alias of `rfc5280.id_pe` -/
def id_pe : Py.Obj :=
  Rfc5280.id_pe

/-- rfc3739.py:52 -/
def id_pda : Py.Obj :=
  (Rfc3739.id_pkix.addArcs [9])

/-- rfc3739.py:57 -/
def id_qcs__0 : Py.Obj :=
  (Rfc3739.id_pkix.addArcs [11])

/-- rfc3739.py:62 -/
def id_pda_dateOfBirth : Py.Obj :=
  (Rfc3739.id_pda.addArcs [1])

/-- rfc3739.py:64-65 `class DateOfBirth(useful.GeneralizedTime)` -/
def DateOfBirth : Py.Obj :=
  Py.useful.GeneralizedTime

/-- rfc3739.py:68 -/
def id_pda_placeOfBirth : Py.Obj :=
  (Rfc3739.id_pda.addArcs [2])

/-- rfc3739.py:70-71 `class PlaceOfBirth(DirectoryString)` -/
def PlaceOfBirth : Py.Obj :=
  Rfc3739.DirectoryString

/-- rfc3739.py:74 -/
def id_pda_gender : Py.Obj :=
  (Rfc3739.id_pda.addArcs [3])

/-- rfc3739.py:76-80 `class Gender(char.PrintableString)` -/
def Gender : Py.Obj :=
  Py.char.PrintableString.setSubtypeSpec (Py.ConstraintsIntersection [(Py.ValueSizeConstraint (.fin 1) (.fin 1)), (Py.SingleValueConstraint [(Py.str "M"), (Py.str "F"), (Py.str "m"), (Py.str "f")])])

/-- rfc3739.py:83 -/
def id_pda_countryOfCitizenship : Py.Obj :=
  (Rfc3739.id_pda.addArcs [4])

/-- rfc3739.py:85-86 `class CountryOfCitizenship(char.PrintableString)` -/
def CountryOfCitizenship : Py.Obj :=
  Py.char.PrintableString.setSubtypeSpec (Py.ValueSizeConstraint (.fin 2) (.fin 2))

/-- rfc3739.py:90 -/
def id_pda_countryOfResidence : Py.Obj :=
  (Rfc3739.id_pda.addArcs [5])

/-- rfc3739.py:92-93 `class CountryOfResidence(char.PrintableString)` -/
def CountryOfResidence : Py.Obj :=
  Py.char.PrintableString.setSubtypeSpec (Py.ValueSizeConstraint (.fin 2) (.fin 2))

/-- rfc3739.py:99 -/
def id_pe_biometricInfo : Py.Obj :=
  (Rfc3739.id_pe.addArcs [2])

/-- rfc3739.py:102-107 `class PredefinedBiometricType(univ.Integer)` -/
def PredefinedBiometricType : Py.Obj :=
  (Py.univ.Integer.setNamedValues (Py.NamedValues [("picture", 0), ("handwritten-signature", 1)])).setSubtypeSpec (Py.SingleValueConstraint [(.int 0), (.int 1)])

/-- rfc3739.py:110-114 `class TypeOfBiometricData(univ.Choice)` -/
def TypeOfBiometricData : Py.Obj :=
  Py.univ.Choice.setComponentType (Py.NamedTypes [
    Py.NamedType "predefinedBiometricType" Rfc3739.PredefinedBiometricType.call,
    Py.NamedType "biometricDataOid" Py.univ.ObjectIdentifier.call])

/-- rfc3739.py:117-123 `class BiometricData(univ.Sequence)` -/
def BiometricData : Py.Obj :=
  Py.univ.Sequence.setComponentType (Py.NamedTypes [
    Py.NamedType "typeOfBiometricData" Rfc3739.TypeOfBiometricData.call,
    Py.NamedType "hashAlgorithm" Rfc3739.AlgorithmIdentifier.call,
    Py.NamedType "biometricDataHash" Py.univ.OctetString.call,
    Py.OptionalNamedType "sourceDataUri" Py.char.IA5String.call])

/-- rfc3739.py:126-127 `class BiometricSyntax(univ.SequenceOf)` -/
def BiometricSyntax : Py.Obj :=
  Py.univ.SequenceOf.setComponentTypeOf Rfc3739.BiometricData.call

/-- rfc3739.py:136 -/
def id_pe_qcStatements : Py.Obj :=
  (Rfc3739.id_pe.addArcs [3])

/-- rfc3739.py:139-141 `class NameRegistrationAuthorities(univ.SequenceOf)` -/
def NameRegistrationAuthorities : Py.Obj :=
  (Py.univ.SequenceOf.setComponentTypeOf Rfc3739.GeneralName.call).setSubtypeSpec (Py.ValueSizeConstraint (.fin 1) Rfc3739.MAX)

/-- rfc3739.py:144-149 `class QCStatement(univ.Sequence)` -/
def QCStatement : Py.Obj :=
  Py.univ.Sequence.setComponentType (Py.NamedTypes [
    Py.NamedType "statementId" Py.univ.ObjectIdentifier.call,
    Py.OptionalNamedType "statementInfo" Py.univ.Any.call (openType := some (Py.OpenType "statementId" (Py.map 20 "rfc3739.qcStatementMap")))])

/-- rfc3739.py:152-153 `class QCStatements(univ.SequenceOf)` -/
def QCStatements : Py.Obj :=
  Py.univ.SequenceOf.setComponentTypeOf Rfc3739.QCStatement.call

/-- rfc3739.py:156-168 `class SemanticsInformation(univ.Sequence)` -/
def SemanticsInformation : Py.Obj :=
  (Py.univ.Sequence.setComponentType (Py.NamedTypes [
    Py.OptionalNamedType "semanticsIndentifier" Py.univ.ObjectIdentifier.call,
    Py.OptionalNamedType "nameRegistrationAuthorities" Rfc3739.NameRegistrationAuthorities.call])).setSubtypeSpec (Py.ConstraintsUnion [(Py.WithComponentsConstraint [("semanticsIndentifier", true)]), (Py.WithComponentsConstraint [("nameRegistrationAuthorities", true)])])

/-- rfc3739.py:171 -/
def id_qcs : Py.Obj :=
  (Rfc3739.id_pkix.addArcs [11])

/-- rfc3739.py:174 -/
def id_qcs_pkixQCSyntax_v1 : Py.Obj :=
  (Rfc3739.id_qcs.addArcs [1])

/-- rfc3739.py:177 -/
def id_qcs_pkixQCSyntax_v2 : Py.Obj :=
  (Rfc3739.id_qcs.addArcs [2])

/-- rfc3739.py:183-186 -/
def _certificateExtensionsMap : Py.Entries :=
  [(Rfc3739.id_pe_biometricInfo.value, Rfc3739.BiometricSyntax.call.ty),
    (Rfc3739.id_pe_qcStatements.value, Rfc3739.QCStatements.call.ty)]

/-- rfc3739.py:194-200 -/
def _certificateAttributesMapUpdate : Py.Entries :=
  [(Rfc3739.id_pda_dateOfBirth.value, Rfc3739.DateOfBirth.call.ty),
    (Rfc3739.id_pda_placeOfBirth.value, Rfc3739.PlaceOfBirth.call.ty),
    (Rfc3739.id_pda_gender.value, Rfc3739.Gender.call.ty),
    (Rfc3739.id_pda_countryOfCitizenship.value, Rfc3739.CountryOfCitizenship.call.ty),
    (Rfc3739.id_pda_countryOfResidence.value, Rfc3739.CountryOfResidence.call.ty)]

/-- Modules of this package imported by rfc3739.py, in textual order. -/
def imports : List Py.Ident :=
  [(Py.mod 15 "rfc5280")]

/-- Dictionary operations executed when rfc3739.py is imported, in program order. -/
def effects : List Py.Effect :=
  [.create (Py.map 20 "rfc3739.qcStatementMap") Rfc3739.qcStatementMap /- rfc3739.py:32 -/,
   .create (Py.map 49 "rfc3739._certificateExtensionsMap") Rfc3739._certificateExtensionsMap /- rfc3739.py:183-186 -/,
   .update (Py.map 48 "rfc5280.certificateExtensionsMap") Rfc3739._certificateExtensionsMap /- rfc3739.py:188 -/,
   .create (Py.map 50 "rfc3739._certificateAttributesMapUpdate") Rfc3739._certificateAttributesMapUpdate /- rfc3739.py:194-200 -/,
   .update (Py.map 4 "rfc5280.certificateAttributesMap") Rfc3739._certificateAttributesMapUpdate /- rfc3739.py:202 -/]

/-- ASN.1 types rfc3739.py binds at module level (final version of each name), plus nested classes. -/
def classes : List (String × Py.Obj) :=
  [("rfc3739.AlgorithmIdentifier", Rfc3739.AlgorithmIdentifier),
   ("rfc3739.AttributeType", Rfc3739.AttributeType),
   ("rfc3739.DirectoryString", Rfc3739.DirectoryString),
   ("rfc3739.GeneralName", Rfc3739.GeneralName),
   ("rfc3739.DateOfBirth", Rfc3739.DateOfBirth),
   ("rfc3739.PlaceOfBirth", Rfc3739.PlaceOfBirth),
   ("rfc3739.Gender", Rfc3739.Gender),
   ("rfc3739.CountryOfCitizenship", Rfc3739.CountryOfCitizenship),
   ("rfc3739.CountryOfResidence", Rfc3739.CountryOfResidence),
   ("rfc3739.PredefinedBiometricType", Rfc3739.PredefinedBiometricType),
   ("rfc3739.TypeOfBiometricData", Rfc3739.TypeOfBiometricData),
   ("rfc3739.BiometricData", Rfc3739.BiometricData),
   ("rfc3739.BiometricSyntax", Rfc3739.BiometricSyntax),
   ("rfc3739.NameRegistrationAuthorities", Rfc3739.NameRegistrationAuthorities),
   ("rfc3739.QCStatement", Rfc3739.QCStatement),
   ("rfc3739.QCStatements", Rfc3739.QCStatements),
   ("rfc3739.SemanticsInformation", Rfc3739.SemanticsInformation)]

/-- pyasn1 instances rfc3739.py binds at module level. -/
def objects : List (String × Py.Obj) :=
  [("rfc3739.id_pkix", Rfc3739.id_pkix),
   ("rfc3739.id_pe", Rfc3739.id_pe),
   ("rfc3739.id_pda", Rfc3739.id_pda),
   ("rfc3739.id_qcs", Rfc3739.id_qcs),
   ("rfc3739.id_pda_dateOfBirth", Rfc3739.id_pda_dateOfBirth),
   ("rfc3739.id_pda_placeOfBirth", Rfc3739.id_pda_placeOfBirth),
   ("rfc3739.id_pda_gender", Rfc3739.id_pda_gender),
   ("rfc3739.id_pda_countryOfCitizenship", Rfc3739.id_pda_countryOfCitizenship),
   ("rfc3739.id_pda_countryOfResidence", Rfc3739.id_pda_countryOfResidence),
   ("rfc3739.id_pe_biometricInfo", Rfc3739.id_pe_biometricInfo),
   ("rfc3739.id_pe_qcStatements", Rfc3739.id_pe_qcStatements),
   ("rfc3739.id_qcs_pkixQCSyntax_v1", Rfc3739.id_qcs_pkixQCSyntax_v1),
   ("rfc3739.id_qcs_pkixQCSyntax_v2", Rfc3739.id_qcs_pkixQCSyntax_v2)]

/-- pyasn1 instances rfc3739.py fills in by item assignment. -/
def protos : List (String × Py.Proto) :=
  []

/-- Every place of rfc3739.py that instantiates a class of the package: where, the class as it is
at that point, and the class as it is when the import has finished. -/
def snapshots : List Py.Snapshot :=
  [⟨"rfc3739.py:112", Rfc3739.PredefinedBiometricType, Rfc3739.PredefinedBiometricType⟩,
   ⟨"rfc3739.py:119", Rfc3739.TypeOfBiometricData, Rfc3739.TypeOfBiometricData⟩,
   ⟨"rfc3739.py:120", Rfc3739.AlgorithmIdentifier, Rfc3739.AlgorithmIdentifier⟩,
   ⟨"rfc3739.py:127", Rfc3739.BiometricData, Rfc3739.BiometricData⟩,
   ⟨"rfc3739.py:140", Rfc3739.GeneralName, Rfc3739.GeneralName⟩,
   ⟨"rfc3739.py:153", Rfc3739.QCStatement, Rfc3739.QCStatement⟩,
   ⟨"rfc3739.py:161", Rfc3739.NameRegistrationAuthorities, Rfc3739.NameRegistrationAuthorities⟩,
   ⟨"rfc3739.py:184", Rfc3739.BiometricSyntax, Rfc3739.BiometricSyntax⟩,
   ⟨"rfc3739.py:185", Rfc3739.QCStatements, Rfc3739.QCStatements⟩,
   ⟨"rfc3739.py:195", Rfc3739.DateOfBirth, Rfc3739.DateOfBirth⟩,
   ⟨"rfc3739.py:196", Rfc3739.PlaceOfBirth, Rfc3739.PlaceOfBirth⟩,
   ⟨"rfc3739.py:197", Rfc3739.Gender, Rfc3739.Gender⟩,
   ⟨"rfc3739.py:198", Rfc3739.CountryOfCitizenship, Rfc3739.CountryOfCitizenship⟩,
   ⟨"rfc3739.py:199", Rfc3739.CountryOfResidence, Rfc3739.CountryOfResidence⟩]

/-- Functions rfc3739.py defines. -/
def builders : List (String × (List Py.OidArg → Py.Obj)) :=
  []

def asModule : Py.Module :=
  { id := (Py.mod 47 "rfc3739"), imports := imports, effects := effects, classes := classes, objects := objects, protos := protos, snapshots := snapshots, builders := builders }

end Rfc3739
end Verif
