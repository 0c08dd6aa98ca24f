import Verif.Py.Obj

/-! Transcription of /repo/pyasn1_modules/rfc8494.py (generated by tools/gen.py). -/

namespace Verif
namespace Rfc8494

/-- rfc8494.py:19 -/
def id_mmhs_CDT : Py.Obj :=
  (Py.univ.ObjectIdentifier.call.callArcs [1, 3, 26, 0, 4406, 0, 4, 2])

/-- rfc8494.py:22-23 `class AlgorithmID_ShortForm(univ.Integer)` -/
def AlgorithmID_ShortForm__0 : Py.Obj :=
  Py.univ.Integer

/-- rfc8494.py:25-27 `AlgorithmID_ShortForm.namedValues = ...` -/
def AlgorithmID_ShortForm : Py.Obj :=
  Rfc8494.AlgorithmID_ShortForm__0.setNamedValues (Py.NamedValues [("zlibCompress", 0)])

/-- rfc8494.py:30-31 `class ContentType_ShortForm(univ.Integer)` -/
def ContentType_ShortForm__0 : Py.Obj :=
  Py.univ.Integer

/-- rfc8494.py:33-40 `ContentType_ShortForm.namedValues = ...` -/
def ContentType_ShortForm : Py.Obj :=
  Rfc8494.ContentType_ShortForm__0.setNamedValues (Py.NamedValues [("unidentified", 0), ("external", 1), ("p1", 2), ("p3", 3), ("p7", 4), ("mule", 25)])

/-- rfc8494.py:43-44 `class CompressedContentInfo(univ.Sequence)` -/
def CompressedContentInfo__0 : Py.Obj :=
  Py.univ.Sequence

/-- rfc8494.py:46-58 `CompressedContentInfo.componentType = ...` -/
def CompressedContentInfo : Py.Obj :=
  Rfc8494.CompressedContentInfo__0.setComponentType (Py.NamedTypes [
    Py.NamedType "unnamed" (Py.univ.Choice.call.setComponentType (Py.NamedTypes [
    Py.NamedType "contentType-ShortForm" (Rfc8494.ContentType_ShortForm.call.explicitTag (Py.Tag .context false 0)),
    Py.NamedType "contentType-OID" (Py.univ.ObjectIdentifier.call.explicitTag (Py.Tag .context false 1))])),
    Py.NamedType "compressedContent" (Py.univ.OctetString.call.explicitTag (Py.Tag .context false 0))])

/-- rfc8494.py:61-62 `class CompressionAlgorithmIdentifier(univ.Choice)` -/
def CompressionAlgorithmIdentifier__0 : Py.Obj :=
  Py.univ.Choice

/-- rfc8494.py:64-71 `CompressionAlgorithmIdentifier.componentType = ...` -/
def CompressionAlgorithmIdentifier : Py.Obj :=
  Rfc8494.CompressionAlgorithmIdentifier__0.setComponentType (Py.NamedTypes [
    Py.NamedType "algorithmID-ShortForm" (Rfc8494.AlgorithmID_ShortForm.call.explicitTag (Py.Tag .context false 0)),
    Py.NamedType "algorithmID-OID" (Py.univ.ObjectIdentifier.call.explicitTag (Py.Tag .context false 1))])

/-- rfc8494.py:74-75 `class CompressedData(univ.Sequence)` -/
def CompressedData__0 : Py.Obj :=
  Py.univ.Sequence

/-- rfc8494.py:77-80 `CompressedData.componentType = ...` -/
def CompressedData : Py.Obj :=
  Rfc8494.CompressedData__0.setComponentType (Py.NamedTypes [
    Py.NamedType "compressionAlgorithm" Rfc8494.CompressionAlgorithmIdentifier.call,
    Py.NamedType "compressedContentInfo" Rfc8494.CompressedContentInfo.call])

/-- Modules of this package imported by rfc8494.py, in textual order. -/
def imports : List Py.Ident :=
  []

/-- Dictionary operations executed when rfc8494.py is imported, in program order. -/
def effects : List Py.Effect :=
  []

/-- ASN.1 types rfc8494.py binds at module level (final version of each name), plus nested classes. -/
def classes : List (String × Py.Obj) :=
  [("rfc8494.AlgorithmID_ShortForm", Rfc8494.AlgorithmID_ShortForm),
   ("rfc8494.ContentType_ShortForm", Rfc8494.ContentType_ShortForm),
   ("rfc8494.CompressedContentInfo", Rfc8494.CompressedContentInfo),
   ("rfc8494.CompressionAlgorithmIdentifier", Rfc8494.CompressionAlgorithmIdentifier),
   ("rfc8494.CompressedData", Rfc8494.CompressedData)]

/-- pyasn1 instances rfc8494.py binds at module level. -/
def objects : List (String × Py.Obj) :=
  [("rfc8494.id_mmhs_CDT", Rfc8494.id_mmhs_CDT)]

/-- pyasn1 instances rfc8494.py fills in by item assignment. -/
def protos : List (String × Py.Proto) :=
  []

/-- Every place of rfc8494.py that instantiates a class of the package: where, the class as it is
at that point, and the class as it is when the import has finished. -/
def snapshots : List Py.Snapshot :=
  [⟨"rfc8494.py:49", Rfc8494.ContentType_ShortForm, Rfc8494.ContentType_ShortForm⟩,
   ⟨"rfc8494.py:66", Rfc8494.AlgorithmID_ShortForm, Rfc8494.AlgorithmID_ShortForm⟩,
   ⟨"rfc8494.py:78", Rfc8494.CompressionAlgorithmIdentifier, Rfc8494.CompressionAlgorithmIdentifier⟩,
   ⟨"rfc8494.py:79", Rfc8494.CompressedContentInfo, Rfc8494.CompressedContentInfo⟩]

/-- Functions rfc8494.py defines. -/
def builders : List (String × (List Py.OidArg → Py.Obj)) :=
  []

def asModule : Py.Module :=
  { id := (Py.mod 121 "rfc8494"), imports := imports, effects := effects, classes := classes, objects := objects, protos := protos, snapshots := snapshots, builders := builders }

end Rfc8494
end Verif
