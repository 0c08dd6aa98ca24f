import Verif.Py.Obj
import Verif.Gen.Rfc5652

/-! Transcription of /repo/pyasn1_modules/rfc8479.py (generated by tools/gen.py). -/

namespace Verif
namespace Rfc8479

/-- rfc8479.py:21 -/
def id_attr_validation_parameters : Py.Obj :=
  (Py.univ.ObjectIdentifier.call.callArcs [1, 3, 6, 1, 4, 1, 2312, 18, 8, 1])

/-- rfc8479.py:24-25 `class ValidationParams(univ.Sequence)` -/
def ValidationParams__0 : Py.Obj :=
  Py.univ.Sequence

/-- rfc8479.py:27-30 `ValidationParams.componentType = ...` -/
def ValidationParams : Py.Obj :=
  Rfc8479.ValidationParams__0.setComponentType (Py.NamedTypes [
    Py.NamedType "hashAlg" Py.univ.ObjectIdentifier.call,
    Py.NamedType "seed" Py.univ.OctetString.call])

/-- rfc8479.py:33 -/
def at_validation_parameters__0 : Py.Proto :=
  { obj := Rfc5652.Attribute.call }

/-- rfc8479.py:34 `at_validation_parameters['attrType'] = ...` -/
def at_validation_parameters__1 : Py.Proto :=
  Rfc8479.at_validation_parameters__0.set "attrType" (.obj Rfc8479.id_attr_validation_parameters)

/-- rfc8479.py:35 `at_validation_parameters['attrValues'][0] = ...` -/
def at_validation_parameters : Py.Proto :=
  Rfc8479.at_validation_parameters__1.set "attrValues" (.elem0 Rfc8479.ValidationParams.call)

/-- rfc8479.py:41-43 -/
def _cmsAttributesMapUpdate : Py.Entries :=
  [(Rfc8479.id_attr_validation_parameters.value, Rfc8479.ValidationParams.call.ty)]

/-- Modules of this package imported by rfc8479.py, in textual order. -/
def imports : List Py.Ident :=
  [(Py.mod 16 "rfc5652")]

/-- Dictionary operations executed when rfc8479.py is imported, in program order. -/
def effects : List Py.Effect :=
  [.create (Py.map 141 "rfc8479._cmsAttributesMapUpdate") Rfc8479._cmsAttributesMapUpdate /- rfc8479.py:41-43 -/,
   .update (Py.map 8 "rfc5652.cmsAttributesMap") Rfc8479._cmsAttributesMapUpdate /- rfc8479.py:45 -/]

/-- ASN.1 types rfc8479.py binds at module level (final version of each name), plus nested classes. -/
def classes : List (String × Py.Obj) :=
  [("rfc8479.ValidationParams", Rfc8479.ValidationParams)]

/-- pyasn1 instances rfc8479.py binds at module level. -/
def objects : List (String × Py.Obj) :=
  [("rfc8479.id_attr_validation_parameters", Rfc8479.id_attr_validation_parameters)]

/-- pyasn1 instances rfc8479.py fills in by item assignment. -/
def protos : List (String × Py.Proto) :=
  [("rfc8479.at_validation_parameters", Rfc8479.at_validation_parameters)]

/-- Every place of rfc8479.py that instantiates a class of the package: where, the class as it is
at that point, and the class as it is when the import has finished. -/
def snapshots : List Py.Snapshot :=
  [⟨"rfc8479.py:33", Rfc5652.Attribute, Rfc5652.Attribute⟩,
   ⟨"rfc8479.py:35", Rfc8479.ValidationParams, Rfc8479.ValidationParams⟩,
   ⟨"rfc8479.py:42", Rfc8479.ValidationParams, Rfc8479.ValidationParams⟩]

/-- Functions rfc8479.py defines. -/
def builders : List (String × (List Py.OidArg → Py.Obj)) :=
  []

def asModule : Py.Module :=
  { id := (Py.mod 120 "rfc8479"), imports := imports, effects := effects, classes := classes, objects := objects, protos := protos, snapshots := snapshots, builders := builders }

end Rfc8479
end Verif
