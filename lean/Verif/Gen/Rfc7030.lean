import Verif.Py.Obj
import Verif.Gen.Rfc5652

/-! Transcription of /repo/pyasn1_modules/rfc7030.py (generated by tools/gen.py). -/

namespace Verif
namespace Rfc7030

/-- rfc7030.py:21 -/
def MAX : Py.Bound :=
  .inf

/-- rfc7030.py:26 alias of `rfc5652.Attribute` -/
def Attribute : Py.Obj :=
  Rfc5652.Attribute

/-- rfc7030.py:31 -/
def id_aa_asymmDecryptKeyID : Py.Obj :=
  (Py.univ.ObjectIdentifier.call.callArcs [1, 2, 840, 113549, 1, 9, 16, 2, 54])

/-- rfc7030.py:33-34 `class AsymmetricDecryptKeyIdentifier(univ.OctetString)` -/
def AsymmetricDecryptKeyIdentifier : Py.Obj :=
  Py.univ.OctetString

/-- rfc7030.py:37 -/
def aa_asymmDecryptKeyID__0 : Py.Proto :=
  { obj := Rfc7030.Attribute.call }

/-- rfc7030.py:38 `aa_asymmDecryptKeyID['attrType'] = ...` -/
def aa_asymmDecryptKeyID__1 : Py.Proto :=
  Rfc7030.aa_asymmDecryptKeyID__0.set "attrType" (.obj Rfc7030.id_aa_asymmDecryptKeyID)

/-- rfc7030.py:39 `aa_asymmDecryptKeyID['attrValues'][0] = ...` -/
def aa_asymmDecryptKeyID : Py.Proto :=
  Rfc7030.aa_asymmDecryptKeyID__1.set "attrValues" (.elem0 Rfc7030.AsymmetricDecryptKeyIdentifier.call)

/-- rfc7030.py:44-45 `class AttrOrOID(univ.Choice)` -/
def AttrOrOID__0 : Py.Obj :=
  Py.univ.Choice

/-- rfc7030.py:47-50 `AttrOrOID.componentType = ...` -/
def AttrOrOID : Py.Obj :=
  Rfc7030.AttrOrOID__0.setComponentType (Py.NamedTypes [
    Py.NamedType "oid" Py.univ.ObjectIdentifier.call,
    Py.NamedType "attribute" Rfc7030.Attribute.call])

/-- rfc7030.py:53-54 `class CsrAttrs(univ.SequenceOf)` -/
def CsrAttrs__0 : Py.Obj :=
  Py.univ.SequenceOf

/-- rfc7030.py:56 `CsrAttrs.componentType = ...` -/
def CsrAttrs__1 : Py.Obj :=
  Rfc7030.CsrAttrs__0.setComponentTypeOf Rfc7030.AttrOrOID.call

/-- rfc7030.py:57 `CsrAttrs.subtypeSpec = ...` -/
def CsrAttrs : Py.Obj :=
  Rfc7030.CsrAttrs__1.setSubtypeSpec (Py.ValueSizeConstraint (.fin 0) Rfc7030.MAX)

/-- rfc7030.py:62-64 -/
def _cmsAttributesMapUpdate : Py.Entries :=
  [(Rfc7030.id_aa_asymmDecryptKeyID.value, Rfc7030.AsymmetricDecryptKeyIdentifier.call.ty)]

/-- Modules of this package imported by rfc7030.py, in textual order. -/
def imports : List Py.Ident :=
  [(Py.mod 16 "rfc5652")]

/-- Dictionary operations executed when rfc7030.py is imported, in program order. -/
def effects : List Py.Effect :=
  [.create (Py.map 119 "rfc7030._cmsAttributesMapUpdate") Rfc7030._cmsAttributesMapUpdate /- rfc7030.py:62-64 -/,
   .update (Py.map 8 "rfc5652.cmsAttributesMap") Rfc7030._cmsAttributesMapUpdate /- rfc7030.py:66 -/]

/-- ASN.1 types rfc7030.py binds at module level (final version of each name), plus nested classes. -/
def classes : List (String × Py.Obj) :=
  [("rfc7030.Attribute", Rfc7030.Attribute),
   ("rfc7030.AsymmetricDecryptKeyIdentifier", Rfc7030.AsymmetricDecryptKeyIdentifier),
   ("rfc7030.AttrOrOID", Rfc7030.AttrOrOID),
   ("rfc7030.CsrAttrs", Rfc7030.CsrAttrs)]

/-- pyasn1 instances rfc7030.py binds at module level. -/
def objects : List (String × Py.Obj) :=
  [("rfc7030.id_aa_asymmDecryptKeyID", Rfc7030.id_aa_asymmDecryptKeyID)]

/-- pyasn1 instances rfc7030.py fills in by item assignment. -/
def protos : List (String × Py.Proto) :=
  [("rfc7030.aa_asymmDecryptKeyID", Rfc7030.aa_asymmDecryptKeyID)]

/-- Every place of rfc7030.py that instantiates a class of the package: where, the class as it is
at that point, and the class as it is when the import has finished. -/
def snapshots : List Py.Snapshot :=
  [⟨"rfc7030.py:37", Rfc7030.Attribute, Rfc7030.Attribute⟩,
   ⟨"rfc7030.py:39", Rfc7030.AsymmetricDecryptKeyIdentifier, Rfc7030.AsymmetricDecryptKeyIdentifier⟩,
   ⟨"rfc7030.py:49", Rfc7030.Attribute, Rfc7030.Attribute⟩,
   ⟨"rfc7030.py:56", Rfc7030.AttrOrOID, Rfc7030.AttrOrOID⟩,
   ⟨"rfc7030.py:63", Rfc7030.AsymmetricDecryptKeyIdentifier, Rfc7030.AsymmetricDecryptKeyIdentifier⟩]

/-- Functions rfc7030.py defines. -/
def builders : List (String × (List Py.OidArg → Py.Obj)) :=
  []

def asModule : Py.Module :=
  { id := (Py.mod 99 "rfc7030"), imports := imports, effects := effects, classes := classes, objects := objects, protos := protos, snapshots := snapshots, builders := builders }

end Rfc7030
end Verif
