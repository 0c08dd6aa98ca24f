import Verif.Py.Obj
import Verif.Gen.Rfc5652

/-! Transcription of /repo/pyasn1_modules/rfc6486.py (generated by tools/gen.py). -/

namespace Verif
namespace Rfc6486

/-- rfc6486.py:24 -/
def MAX : Py.Bound :=
  .inf

/-- rfc6486.py:27 -/
def id_smime : Py.Obj :=
  (Py.univ.ObjectIdentifier.call.callArcs [1, 2, 840, 113549, 1, 9, 16])

/-- rfc6486.py:29 -/
def id_ct : Py.Obj :=
  (Rfc6486.id_smime.addArcs [1])

/-- rfc6486.py:31 -/
def id_ct_rpkiManifest : Py.Obj :=
  (Rfc6486.id_ct.addArcs [26])

/-- rfc6486.py:34-38 `class FileAndHash(univ.Sequence)` -/
def FileAndHash : Py.Obj :=
  Py.univ.Sequence.setComponentType (Py.NamedTypes [
    Py.NamedType "file" Py.char.IA5String.call,
    Py.NamedType "hash" Py.univ.BitString.call])

/-- rfc6486.py:41-58 `class Manifest(univ.Sequence)` -/
def Manifest : Py.Obj :=
  Py.univ.Sequence.setComponentType (Py.NamedTypes [
    Py.DefaultedNamedType "version" ((Py.univ.Integer.call.explicitTag (Py.Tag .context false 0)).callInt 0),
    Py.NamedType "manifestNumber" (Py.univ.Integer.call.addSubtypeSpec (Py.ValueRangeConstraint (.fin 0) Rfc6486.MAX)),
    Py.NamedType "thisUpdate" Py.useful.GeneralizedTime.call,
    Py.NamedType "nextUpdate" Py.useful.GeneralizedTime.call,
    Py.NamedType "fileHashAlg" Py.univ.ObjectIdentifier.call,
    Py.NamedType "fileList" ((Py.univ.SequenceOf.call.setComponentTypeOf Rfc6486.FileAndHash.call).addSubtypeSpec (Py.ValueSizeConstraint (.fin 0) Rfc6486.MAX))])

/-- rfc6486.py:64-66 -/
def _cmsContentTypesMapUpdate : Py.Entries :=
  [(Rfc6486.id_ct_rpkiManifest.value, Rfc6486.Manifest.call.ty)]

/-- Modules of this package imported by rfc6486.py, in textual order. -/
def imports : List Py.Ident :=
  [(Py.mod 16 "rfc5652")]

/-- Dictionary operations executed when rfc6486.py is imported, in program order. -/
def effects : List Py.Effect :=
  [.create (Py.map 114 "rfc6486._cmsContentTypesMapUpdate") Rfc6486._cmsContentTypesMapUpdate /- rfc6486.py:64-66 -/,
   .update (Py.map 13 "rfc5652.cmsContentTypesMap") Rfc6486._cmsContentTypesMapUpdate /- rfc6486.py:68 -/]

/-- ASN.1 types rfc6486.py binds at module level (final version of each name), plus nested classes. -/
def classes : List (String × Py.Obj) :=
  [("rfc6486.FileAndHash", Rfc6486.FileAndHash),
   ("rfc6486.Manifest", Rfc6486.Manifest)]

/-- pyasn1 instances rfc6486.py binds at module level. -/
def objects : List (String × Py.Obj) :=
  [("rfc6486.id_smime", Rfc6486.id_smime),
   ("rfc6486.id_ct", Rfc6486.id_ct),
   ("rfc6486.id_ct_rpkiManifest", Rfc6486.id_ct_rpkiManifest)]

/-- pyasn1 instances rfc6486.py fills in by item assignment. -/
def protos : List (String × Py.Proto) :=
  []

/-- Every place of rfc6486.py that instantiates a class of the package: where, the class as it is
at that point, and the class as it is when the import has finished. -/
def snapshots : List Py.Snapshot :=
  [⟨"rfc6486.py:56", Rfc6486.FileAndHash, Rfc6486.FileAndHash⟩,
   ⟨"rfc6486.py:65", Rfc6486.Manifest, Rfc6486.Manifest⟩]

/-- Functions rfc6486.py defines. -/
def builders : List (String × (List Py.OidArg → Py.Obj)) :=
  []

def asModule : Py.Module :=
  { id := (Py.mod 95 "rfc6486"), imports := imports, effects := effects, classes := classes, objects := objects, protos := protos, snapshots := snapshots, builders := builders }

end Rfc6486
end Verif
