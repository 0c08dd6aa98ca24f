import Verif.Py.Obj
import Verif.Gen.Rfc5280
import Verif.Gen.Rfc5652

/-! Transcription of /repo/pyasn1_modules/rfc3274.py (generated by tools/gen.py). -/

namespace Verif
namespace Rfc3274

/-- rfc3274.py:23-24 `class CompressionAlgorithmIdentifier(rfc5280.AlgorithmIdentifier)` -/
def CompressionAlgorithmIdentifier : Py.Obj :=
  Rfc5280.AlgorithmIdentifier

/-- rfc3274.py:29 -/
def id_ct_compressedData : Py.Obj :=
  (Py.univ.ObjectIdentifier.call.callArcs [1, 2, 840, 113549, 1, 9, 16, 1, 9])

/-- rfc3274.py:31-32 `class CompressedData(univ.Sequence)` -/
def CompressedData__0 : Py.Obj :=
  Py.univ.Sequence

/-- rfc3274.py:34-38 `CompressedData.componentType = ...` -/
def CompressedData : Py.Obj :=
  Rfc3274.CompressedData__0.setComponentType (Py.NamedTypes [
    Py.NamedType "version" Rfc5652.CMSVersion.call,
    Py.NamedType "compressionAlgorithm" Rfc3274.CompressionAlgorithmIdentifier.call,
    Py.NamedType "encapContentInfo" Rfc5652.EncapsulatedContentInfo.call])

/-- rfc3274.py:45 -/
def id_alg_zlibCompress : Py.Obj :=
  (Py.univ.ObjectIdentifier.call.callArcs [1, 2, 840, 113549, 1, 9, 16, 3, 8])

/-- rfc3274.py:47 -/
def cpa_zlibCompress__0 : Py.Proto :=
  { obj := Rfc5280.AlgorithmIdentifier.call }

/-- rfc3274.py:48 `cpa_zlibCompress['algorithm'] = ...` -/
def cpa_zlibCompress : Py.Proto :=
  Rfc3274.cpa_zlibCompress__0.set "algorithm" (.obj Rfc3274.id_alg_zlibCompress)

/-- rfc3274.py:55-57 -/
def _cmsContentTypesMapUpdate : Py.Entries :=
  [(Rfc3274.id_ct_compressedData.value, Rfc3274.CompressedData.call.ty)]

/-- Modules of this package imported by rfc3274.py, in textual order. -/
def imports : List Py.Ident :=
  [(Py.mod 15 "rfc5280"), (Py.mod 16 "rfc5652")]

/-- Dictionary operations executed when rfc3274.py is imported, in program order. -/
def effects : List Py.Effect :=
  [.create (Py.map 39 "rfc3274._cmsContentTypesMapUpdate") Rfc3274._cmsContentTypesMapUpdate /- rfc3274.py:55-57 -/,
   .update (Py.map 13 "rfc5652.cmsContentTypesMap") Rfc3274._cmsContentTypesMapUpdate /- rfc3274.py:59 -/]

/-- ASN.1 types rfc3274.py binds at module level (final version of each name), plus nested classes. -/
def classes : List (String × Py.Obj) :=
  [("rfc3274.CompressionAlgorithmIdentifier", Rfc3274.CompressionAlgorithmIdentifier),
   ("rfc3274.CompressedData", Rfc3274.CompressedData)]

/-- pyasn1 instances rfc3274.py binds at module level. -/
def objects : List (String × Py.Obj) :=
  [("rfc3274.id_ct_compressedData", Rfc3274.id_ct_compressedData),
   ("rfc3274.id_alg_zlibCompress", Rfc3274.id_alg_zlibCompress)]

/-- pyasn1 instances rfc3274.py fills in by item assignment. -/
def protos : List (String × Py.Proto) :=
  [("rfc3274.cpa_zlibCompress", Rfc3274.cpa_zlibCompress)]

/-- Every place of rfc3274.py that instantiates a class of the package: where, the class as it is
at that point, and the class as it is when the import has finished. -/
def snapshots : List Py.Snapshot :=
  [⟨"rfc3274.py:35", Rfc5652.CMSVersion, Rfc5652.CMSVersion⟩,
   ⟨"rfc3274.py:36", Rfc3274.CompressionAlgorithmIdentifier, Rfc3274.CompressionAlgorithmIdentifier⟩,
   ⟨"rfc3274.py:37", Rfc5652.EncapsulatedContentInfo, Rfc5652.EncapsulatedContentInfo⟩,
   ⟨"rfc3274.py:47", Rfc5280.AlgorithmIdentifier, Rfc5280.AlgorithmIdentifier⟩,
   ⟨"rfc3274.py:56", Rfc3274.CompressedData, Rfc3274.CompressedData⟩]

/-- Functions rfc3274.py defines. -/
def builders : List (String × (List Py.OidArg → Py.Obj)) :=
  []

def asModule : Py.Module :=
  { id := (Py.mod 32 "rfc3274"), imports := imports, effects := effects, classes := classes, objects := objects, protos := protos, snapshots := snapshots, builders := builders }

end Rfc3274
end Verif
