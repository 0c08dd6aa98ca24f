import Verif.Py.Obj
import Verif.Gen.Rfc5280

/-! Transcription of /repo/pyasn1_modules/rfc8226.py (generated by tools/gen.py). -/

namespace Verif
namespace Rfc8226

/-- rfc8226.py:23 -/
def MAX : Py.Bound :=
  .inf

/-- rfc8226.py:26-34 `def _OID(*components)` -/
def _OID (components : List Py.OidArg) : Py.Obj :=
  match Py.oidLoop [] components with
  | some output => Py.univ.ObjectIdentifier.call.callArcs output
  | none => .fail "OID without value"

/-- rfc8226.py:37-38 `class JWTClaimName(char.IA5String)` -/
def JWTClaimName : Py.Obj :=
  Py.char.IA5String

/-- rfc8226.py:41-42 `class JWTClaimNames(univ.SequenceOf)` -/
def JWTClaimNames__0 : Py.Obj :=
  Py.univ.SequenceOf

/-- rfc8226.py:44 `JWTClaimNames.componentType = ...` -/
def JWTClaimNames__1 : Py.Obj :=
  Rfc8226.JWTClaimNames__0.setComponentTypeOf Rfc8226.JWTClaimName.call

/-- rfc8226.py:45 `JWTClaimNames.sizeSpec = ...` -/
def JWTClaimNames : Py.Obj :=
  Rfc8226.JWTClaimNames__1.setSizeSpec (Py.ValueSizeConstraint (.fin 1) Rfc8226.MAX)

/-- rfc8226.py:48-49 `class JWTClaimPermittedValues(univ.Sequence)` -/
def JWTClaimPermittedValues__0 : Py.Obj :=
  Py.univ.Sequence

/-- rfc8226.py:51-56 `JWTClaimPermittedValues.componentType = ...` -/
def JWTClaimPermittedValues : Py.Obj :=
  Rfc8226.JWTClaimPermittedValues__0.setComponentType (Py.NamedTypes [
    Py.NamedType "claim" Rfc8226.JWTClaimName.call,
    Py.NamedType "permitted" ((Py.univ.SequenceOf.call.setComponentTypeOf Py.char.UTF8String.call).addSizeSpec (Py.ValueSizeConstraint (.fin 1) Rfc8226.MAX))])

/-- rfc8226.py:59-60 `class JWTClaimPermittedValuesList(univ.SequenceOf)` -/
def JWTClaimPermittedValuesList__0 : Py.Obj :=
  Py.univ.SequenceOf

/-- rfc8226.py:62 `JWTClaimPermittedValuesList.componentType = ...` -/
def JWTClaimPermittedValuesList__1 : Py.Obj :=
  Rfc8226.JWTClaimPermittedValuesList__0.setComponentTypeOf Rfc8226.JWTClaimPermittedValues.call

/-- rfc8226.py:63 `JWTClaimPermittedValuesList.sizeSpec = ...` -/
def JWTClaimPermittedValuesList : Py.Obj :=
  Rfc8226.JWTClaimPermittedValuesList__1.setSizeSpec (Py.ValueSizeConstraint (.fin 1) Rfc8226.MAX)

/-- rfc8226.py:66-67 `class JWTClaimConstraints(univ.Sequence)` -/
def JWTClaimConstraints__0 : Py.Obj :=
  Py.univ.Sequence

/-- rfc8226.py:69-76 `JWTClaimConstraints.componentType = ...` -/
def JWTClaimConstraints__1 : Py.Obj :=
  Rfc8226.JWTClaimConstraints__0.setComponentType (Py.NamedTypes [
    Py.OptionalNamedType "mustInclude" (Rfc8226.JWTClaimNames.call.explicitTag (Py.Tag .context false 0)),
    Py.OptionalNamedType "permittedValues" (Rfc8226.JWTClaimPermittedValuesList.call.explicitTag (Py.Tag .context false 1))])

/-- rfc8226.py:78-83 `JWTClaimConstraints.subtypeSpec = ...` -/
def JWTClaimConstraints : Py.Obj :=
  Rfc8226.JWTClaimConstraints__1.setSubtypeSpec (Py.ConstraintsUnion [(Py.WithComponentsConstraint [("mustInclude", true)]), (Py.WithComponentsConstraint [("permittedValues", true)])])

/-- rfc8226.py:86 -/
def id_pe_JWTClaimConstraints : Py.Obj :=
  (Rfc8226._OID [.num 1, .num 3, .num 6, .num 1, .num 5, .num 5, .num 7, .num 1, .num 27])

/-- rfc8226.py:89-90 `class ServiceProviderCode(char.IA5String)` -/
def ServiceProviderCode : Py.Obj :=
  Py.char.IA5String

/-- rfc8226.py:93-94 `class TelephoneNumber(char.IA5String)` -/
def TelephoneNumber__0 : Py.Obj :=
  Py.char.IA5String

/-- rfc8226.py:96-100 `TelephoneNumber.subtypeSpec = ...` -/
def TelephoneNumber : Py.Obj :=
  Rfc8226.TelephoneNumber__0.setSubtypeSpec (Py.ConstraintsIntersection [(Py.ValueSizeConstraint (.fin 1) (.fin 15)), (Py.PermittedAlphabetConstraint (Py.chars "0123456789#*"))])

/-- rfc8226.py:103-104 `class TelephoneNumberRange(univ.Sequence)` -/
def TelephoneNumberRange__0 : Py.Obj :=
  Py.univ.Sequence

/-- rfc8226.py:106-110 `TelephoneNumberRange.componentType = ...` -/
def TelephoneNumberRange : Py.Obj :=
  Rfc8226.TelephoneNumberRange__0.setComponentType (Py.NamedTypes [
    Py.NamedType "start" Rfc8226.TelephoneNumber.call,
    Py.NamedType "count" (Py.univ.Integer.call.addSubtypeSpec (Py.ValueRangeConstraint (.fin 2) Rfc8226.MAX))])

/-- rfc8226.py:113-114 `class TNEntry(univ.Choice)` -/
def TNEntry__0 : Py.Obj :=
  Py.univ.Choice

/-- rfc8226.py:116-126 `TNEntry.componentType = ...` -/
def TNEntry : Py.Obj :=
  Rfc8226.TNEntry__0.setComponentType (Py.NamedTypes [
    Py.NamedType "spc" (Rfc8226.ServiceProviderCode.call.explicitTag (Py.Tag .context false 0)),
    Py.NamedType "range" (Rfc8226.TelephoneNumberRange.call.explicitTag (Py.Tag .context true 1)),
    Py.NamedType "one" (Rfc8226.TelephoneNumber.call.explicitTag (Py.Tag .context false 2))])

/-- rfc8226.py:129-130 `class TNAuthorizationList(univ.SequenceOf)` -/
def TNAuthorizationList__0 : Py.Obj :=
  Py.univ.SequenceOf

/-- rfc8226.py:132 `TNAuthorizationList.componentType = ...` -/
def TNAuthorizationList__1 : Py.Obj :=
  Rfc8226.TNAuthorizationList__0.setComponentTypeOf Rfc8226.TNEntry.call

/-- rfc8226.py:133 `TNAuthorizationList.sizeSpec = ...` -/
def TNAuthorizationList : Py.Obj :=
  Rfc8226.TNAuthorizationList__1.setSizeSpec (Py.ValueSizeConstraint (.fin 1) Rfc8226.MAX)

/-- rfc8226.py:135 -/
def id_pe_TNAuthList : Py.Obj :=
  (Rfc8226._OID [.num 1, .num 3, .num 6, .num 1, .num 5, .num 5, .num 7, .num 1, .num 26])

/-- rfc8226.py:138 -/
def id_ad_stirTNList : Py.Obj :=
  (Rfc8226._OID [.num 1, .num 3, .num 6, .num 1, .num 5, .num 5, .num 7, .num 48, .num 14])

/-- rfc8226.py:144-147 -/
def _certificateExtensionsMapUpdate : Py.Entries :=
  [(Rfc8226.id_pe_TNAuthList.value, Rfc8226.TNAuthorizationList.call.ty),
    (Rfc8226.id_pe_JWTClaimConstraints.value, Rfc8226.JWTClaimConstraints.call.ty)]

/-- Modules of this package imported by rfc8226.py, in textual order. -/
def imports : List Py.Ident :=
  [(Py.mod 15 "rfc5280")]

/-- Dictionary operations executed when rfc8226.py is imported, in program order. -/
def effects : List Py.Effect :=
  [.create (Py.map 136 "rfc8226._certificateExtensionsMapUpdate") Rfc8226._certificateExtensionsMapUpdate /- rfc8226.py:144-147 -/,
   .update (Py.map 48 "rfc5280.certificateExtensionsMap") Rfc8226._certificateExtensionsMapUpdate /- rfc8226.py:149 -/]

/-- ASN.1 types rfc8226.py binds at module level (final version of each name), plus nested classes. -/
def classes : List (String × Py.Obj) :=
  [("rfc8226.JWTClaimName", Rfc8226.JWTClaimName),
   ("rfc8226.JWTClaimNames", Rfc8226.JWTClaimNames),
   ("rfc8226.JWTClaimPermittedValues", Rfc8226.JWTClaimPermittedValues),
   ("rfc8226.JWTClaimPermittedValuesList", Rfc8226.JWTClaimPermittedValuesList),
   ("rfc8226.JWTClaimConstraints", Rfc8226.JWTClaimConstraints),
   ("rfc8226.ServiceProviderCode", Rfc8226.ServiceProviderCode),
   ("rfc8226.TelephoneNumber", Rfc8226.TelephoneNumber),
   ("rfc8226.TelephoneNumberRange", Rfc8226.TelephoneNumberRange),
   ("rfc8226.TNEntry", Rfc8226.TNEntry),
   ("rfc8226.TNAuthorizationList", Rfc8226.TNAuthorizationList)]

/-- pyasn1 instances rfc8226.py binds at module level. -/
def objects : List (String × Py.Obj) :=
  [("rfc8226.id_pe_JWTClaimConstraints", Rfc8226.id_pe_JWTClaimConstraints),
   ("rfc8226.id_pe_TNAuthList", Rfc8226.id_pe_TNAuthList),
   ("rfc8226.id_ad_stirTNList", Rfc8226.id_ad_stirTNList)]

/-- pyasn1 instances rfc8226.py fills in by item assignment. -/
def protos : List (String × Py.Proto) :=
  []

/-- Every place of rfc8226.py that instantiates a class of the package: where, the class as it is
at that point, and the class as it is when the import has finished. -/
def snapshots : List Py.Snapshot :=
  [⟨"rfc8226.py:44", Rfc8226.JWTClaimName, Rfc8226.JWTClaimName⟩,
   ⟨"rfc8226.py:52", Rfc8226.JWTClaimName, Rfc8226.JWTClaimName⟩,
   ⟨"rfc8226.py:62", Rfc8226.JWTClaimPermittedValues, Rfc8226.JWTClaimPermittedValues⟩,
   ⟨"rfc8226.py:71", Rfc8226.JWTClaimNames, Rfc8226.JWTClaimNames⟩,
   ⟨"rfc8226.py:74", Rfc8226.JWTClaimPermittedValuesList, Rfc8226.JWTClaimPermittedValuesList⟩,
   ⟨"rfc8226.py:107", Rfc8226.TelephoneNumber, Rfc8226.TelephoneNumber⟩,
   ⟨"rfc8226.py:118", Rfc8226.ServiceProviderCode, Rfc8226.ServiceProviderCode⟩,
   ⟨"rfc8226.py:121", Rfc8226.TelephoneNumberRange, Rfc8226.TelephoneNumberRange⟩,
   ⟨"rfc8226.py:124", Rfc8226.TelephoneNumber, Rfc8226.TelephoneNumber⟩,
   ⟨"rfc8226.py:132", Rfc8226.TNEntry, Rfc8226.TNEntry⟩,
   ⟨"rfc8226.py:145", Rfc8226.TNAuthorizationList, Rfc8226.TNAuthorizationList⟩,
   ⟨"rfc8226.py:146", Rfc8226.JWTClaimConstraints, Rfc8226.JWTClaimConstraints⟩]

/-- Functions rfc8226.py defines. -/
def builders : List (String × (List Py.OidArg → Py.Obj)) :=
  [("rfc8226._OID", Rfc8226._OID)]

def asModule : Py.Module :=
  { id := (Py.mod 113 "rfc8226"), imports := imports, effects := effects, classes := classes, objects := objects, protos := protos, snapshots := snapshots, builders := builders }

end Rfc8226
end Verif
