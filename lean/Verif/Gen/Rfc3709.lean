import Verif.Py.Obj
import Verif.Gen.Rfc5280
import Verif.Gen.Rfc6170

/-! Transcription of /repo/pyasn1_modules/rfc3709.py (generated by tools/gen.py). -/

namespace Verif
namespace Rfc3709

/-- rfc3709.py:26 -/
def MAX : Py.Bound :=
  .inf

/-- rfc3709.py:29-30 `class HashAlgAndValue(univ.Sequence)` -/
def HashAlgAndValue__0 : Py.Obj :=
  Py.univ.Sequence

/-- rfc3709.py:32-35 `HashAlgAndValue.componentType = ...` -/
def HashAlgAndValue : Py.Obj :=
  Rfc3709.HashAlgAndValue__0.setComponentType (Py.NamedTypes [
    Py.NamedType "hashAlg" Rfc5280.AlgorithmIdentifier.call,
    Py.NamedType "hashValue" Py.univ.OctetString.call])

/-- rfc3709.py:38-39 `class LogotypeDetails(univ.Sequence)` -/
def LogotypeDetails__0 : Py.Obj :=
  Py.univ.Sequence

/-- rfc3709.py:41-49 `LogotypeDetails.componentType = ...` -/
def LogotypeDetails : Py.Obj :=
  Rfc3709.LogotypeDetails__0.setComponentType (Py.NamedTypes [
    Py.NamedType "mediaType" Py.char.IA5String.call,
    Py.NamedType "logotypeHash" ((Py.univ.SequenceOf.call.setComponentTypeOf Rfc3709.HashAlgAndValue.call).addSizeSpec (Py.ValueSizeConstraint (.fin 1) Rfc3709.MAX)),
    Py.NamedType "logotypeURI" ((Py.univ.SequenceOf.call.setComponentTypeOf Py.char.IA5String.call).addSizeSpec (Py.ValueSizeConstraint (.fin 1) Rfc3709.MAX))])

/-- rfc3709.py:52-53 `class LogotypeAudioInfo(univ.Sequence)` -/
def LogotypeAudioInfo__0 : Py.Obj :=
  Py.univ.Sequence

/-- rfc3709.py:55-63 `LogotypeAudioInfo.componentType = ...` -/
def LogotypeAudioInfo : Py.Obj :=
  Rfc3709.LogotypeAudioInfo__0.setComponentType (Py.NamedTypes [
    Py.NamedType "fileSize" Py.univ.Integer.call,
    Py.NamedType "playTime" Py.univ.Integer.call,
    Py.NamedType "channels" Py.univ.Integer.call,
    Py.OptionalNamedType "sampleRate" (Py.univ.Integer.call.implicitTag (Py.Tag .context false 3)),
    Py.OptionalNamedType "language" (Py.char.IA5String.call.implicitTag (Py.Tag .context false 4))])

/-- rfc3709.py:66-67 `class LogotypeAudio(univ.Sequence)` -/
def LogotypeAudio__0 : Py.Obj :=
  Py.univ.Sequence

/-- rfc3709.py:69-72 `LogotypeAudio.componentType = ...` -/
def LogotypeAudio : Py.Obj :=
  Rfc3709.LogotypeAudio__0.setComponentType (Py.NamedTypes [
    Py.NamedType "audioDetails" Rfc3709.LogotypeDetails.call,
    Py.OptionalNamedType "audioInfo" Rfc3709.LogotypeAudioInfo.call])

/-- rfc3709.py:75-76 `class LogotypeImageType(univ.Integer)` -/
def LogotypeImageType__0 : Py.Obj :=
  Py.univ.Integer

/-- rfc3709.py:78-81 `LogotypeImageType.namedValues = ...` -/
def LogotypeImageType : Py.Obj :=
  Rfc3709.LogotypeImageType__0.setNamedValues (Py.NamedValues [("grayScale", 0), ("color", 1)])

/-- rfc3709.py:84-85 `class LogotypeImageResolution(univ.Choice)` -/
def LogotypeImageResolution__0 : Py.Obj :=
  Py.univ.Choice

/-- rfc3709.py:87-94 `LogotypeImageResolution.componentType = ...` -/
def LogotypeImageResolution : Py.Obj :=
  Rfc3709.LogotypeImageResolution__0.setComponentType (Py.NamedTypes [
    Py.NamedType "numBits" (Py.univ.Integer.call.implicitTag (Py.Tag .context false 1)),
    Py.NamedType "tableSize" (Py.univ.Integer.call.implicitTag (Py.Tag .context false 2))])

/-- rfc3709.py:97-98 `class LogotypeImageInfo(univ.Sequence)` -/
def LogotypeImageInfo__0 : Py.Obj :=
  Py.univ.Sequence

/-- rfc3709.py:100-110 `LogotypeImageInfo.componentType = ...` -/
def LogotypeImageInfo : Py.Obj :=
  Rfc3709.LogotypeImageInfo__0.setComponentType (Py.NamedTypes [
    Py.DefaultedNamedType "type" ((Rfc3709.LogotypeImageType.call.implicitTag (Py.Tag .context false 0)).callStr "color"),
    Py.NamedType "fileSize" Py.univ.Integer.call,
    Py.NamedType "xSize" Py.univ.Integer.call,
    Py.NamedType "ySize" Py.univ.Integer.call,
    Py.OptionalNamedType "resolution" Rfc3709.LogotypeImageResolution.call,
    Py.OptionalNamedType "language" (Py.char.IA5String.call.implicitTag (Py.Tag .context false 4))])

/-- rfc3709.py:113-114 `class LogotypeImage(univ.Sequence)` -/
def LogotypeImage__0 : Py.Obj :=
  Py.univ.Sequence

/-- rfc3709.py:116-119 `LogotypeImage.componentType = ...` -/
def LogotypeImage : Py.Obj :=
  Rfc3709.LogotypeImage__0.setComponentType (Py.NamedTypes [
    Py.NamedType "imageDetails" Rfc3709.LogotypeDetails.call,
    Py.OptionalNamedType "imageInfo" Rfc3709.LogotypeImageInfo.call])

/-- rfc3709.py:122-123 `class LogotypeData(univ.Sequence)` -/
def LogotypeData__0 : Py.Obj :=
  Py.univ.Sequence

/-- rfc3709.py:125-132 `LogotypeData.componentType = ...` -/
def LogotypeData : Py.Obj :=
  Rfc3709.LogotypeData__0.setComponentType (Py.NamedTypes [
    Py.OptionalNamedType "image" (Py.univ.SequenceOf.call.setComponentTypeOf Rfc3709.LogotypeImage.call),
    Py.OptionalNamedType "audio" ((Py.univ.SequenceOf.call.setComponentTypeOf Rfc3709.LogotypeAudio.call).implicitTag (Py.Tag .context false 1))])

/-- rfc3709.py:135-136 `class LogotypeReference(univ.Sequence)` -/
def LogotypeReference__0 : Py.Obj :=
  Py.univ.Sequence

/-- rfc3709.py:138-145 `LogotypeReference.componentType = ...` -/
def LogotypeReference : Py.Obj :=
  Rfc3709.LogotypeReference__0.setComponentType (Py.NamedTypes [
    Py.NamedType "refStructHash" ((Py.univ.SequenceOf.call.setComponentTypeOf Rfc3709.HashAlgAndValue.call).addSizeSpec (Py.ValueSizeConstraint (.fin 1) Rfc3709.MAX)),
    Py.NamedType "refStructURI" ((Py.univ.SequenceOf.call.setComponentTypeOf Py.char.IA5String.call).addSizeSpec (Py.ValueSizeConstraint (.fin 1) Rfc3709.MAX))])

/-- rfc3709.py:148-149 `class LogotypeInfo(univ.Choice)` -/
def LogotypeInfo__0 : Py.Obj :=
  Py.univ.Choice

/-- rfc3709.py:151-158 `LogotypeInfo.componentType = ...` -/
def LogotypeInfo : Py.Obj :=
  Rfc3709.LogotypeInfo__0.setComponentType (Py.NamedTypes [
    Py.NamedType "direct" (Rfc3709.LogotypeData.call.implicitTag (Py.Tag .context true 0)),
    Py.NamedType "indirect" (Rfc3709.LogotypeReference.call.implicitTag (Py.Tag .context true 1))])

/-- rfc3709.py:162 -/
def id_logo_background : Py.Obj :=
  (Py.univ.ObjectIdentifier.call.callArcs [1, 3, 6, 1, 5, 5, 7, 20, 2])

/-- rfc3709.py:164 -/
def id_logo_loyalty : Py.Obj :=
  (Py.univ.ObjectIdentifier.call.callArcs [1, 3, 6, 1, 5, 5, 7, 20, 1])

/-- rfc3709.py:166 alias of `rfc6170.id_logo_certImage` -/
def id_logo_certImage : Py.Obj :=
  Rfc6170.id_logo_certImage

/-- rfc3709.py:169-170 `class OtherLogotypeInfo(univ.Sequence)` -/
def OtherLogotypeInfo__0 : Py.Obj :=
  Py.univ.Sequence

/-- rfc3709.py:172-175 `OtherLogotypeInfo.componentType = ...` -/
def OtherLogotypeInfo : Py.Obj :=
  Rfc3709.OtherLogotypeInfo__0.setComponentType (Py.NamedTypes [
    Py.NamedType "logotypeType" Py.univ.ObjectIdentifier.call,
    Py.NamedType "info" Rfc3709.LogotypeInfo.call])

/-- rfc3709.py:180 -/
def id_pe_logotype : Py.Obj :=
  (Py.univ.ObjectIdentifier.call.callArcs [1, 3, 6, 1, 5, 5, 7, 1, 12])

/-- rfc3709.py:183-184 `class LogotypeExtn(univ.Sequence)` -/
def LogotypeExtn__0 : Py.Obj :=
  Py.univ.Sequence

/-- rfc3709.py:186-197 `LogotypeExtn.componentType = ...` -/
def LogotypeExtn : Py.Obj :=
  Rfc3709.LogotypeExtn__0.setComponentType (Py.NamedTypes [
    Py.OptionalNamedType "communityLogos" ((Py.univ.SequenceOf.call.setComponentTypeOf Rfc3709.LogotypeInfo.call).explicitTag (Py.Tag .context false 0)),
    Py.OptionalNamedType "issuerLogo" (Rfc3709.LogotypeInfo.call.explicitTag (Py.Tag .context true 1)),
    Py.OptionalNamedType "subjectLogo" (Rfc3709.LogotypeInfo.call.explicitTag (Py.Tag .context true 2)),
    Py.OptionalNamedType "otherLogos" ((Py.univ.SequenceOf.call.setComponentTypeOf Rfc3709.OtherLogotypeInfo.call).explicitTag (Py.Tag .context false 3))])

/-- rfc3709.py:203-205 -/
def _certificateExtensionsMapUpdate : Py.Entries :=
  [(Rfc3709.id_pe_logotype.value, Rfc3709.LogotypeExtn.call.ty)]

/-- Modules of this package imported by rfc3709.py, in textual order. -/
def imports : List Py.Ident :=
  [(Py.mod 15 "rfc5280"), (Py.mod 45 "rfc6170")]

/-- Dictionary operations executed when rfc3709.py is imported, in program order. -/
def effects : List Py.Effect :=
  [.create (Py.map 47 "rfc3709._certificateExtensionsMapUpdate") Rfc3709._certificateExtensionsMapUpdate /- rfc3709.py:203-205 -/,
   .update (Py.map 48 "rfc5280.certificateExtensionsMap") Rfc3709._certificateExtensionsMapUpdate /- rfc3709.py:207 -/]

/-- ASN.1 types rfc3709.py binds at module level (final version of each name), plus nested classes. -/
def classes : List (String × Py.Obj) :=
  [("rfc3709.HashAlgAndValue", Rfc3709.HashAlgAndValue),
   ("rfc3709.LogotypeDetails", Rfc3709.LogotypeDetails),
   ("rfc3709.LogotypeAudioInfo", Rfc3709.LogotypeAudioInfo),
   ("rfc3709.LogotypeAudio", Rfc3709.LogotypeAudio),
   ("rfc3709.LogotypeImageType", Rfc3709.LogotypeImageType),
   ("rfc3709.LogotypeImageResolution", Rfc3709.LogotypeImageResolution),
   ("rfc3709.LogotypeImageInfo", Rfc3709.LogotypeImageInfo),
   ("rfc3709.LogotypeImage", Rfc3709.LogotypeImage),
   ("rfc3709.LogotypeData", Rfc3709.LogotypeData),
   ("rfc3709.LogotypeReference", Rfc3709.LogotypeReference),
   ("rfc3709.LogotypeInfo", Rfc3709.LogotypeInfo),
   ("rfc3709.OtherLogotypeInfo", Rfc3709.OtherLogotypeInfo),
   ("rfc3709.LogotypeExtn", Rfc3709.LogotypeExtn)]

/-- pyasn1 instances rfc3709.py binds at module level. -/
def objects : List (String × Py.Obj) :=
  [("rfc3709.id_logo_background", Rfc3709.id_logo_background),
   ("rfc3709.id_logo_loyalty", Rfc3709.id_logo_loyalty),
   ("rfc3709.id_logo_certImage", Rfc3709.id_logo_certImage),
   ("rfc3709.id_pe_logotype", Rfc3709.id_pe_logotype)]

/-- pyasn1 instances rfc3709.py fills in by item assignment. -/
def protos : List (String × Py.Proto) :=
  []

/-- Every place of rfc3709.py that instantiates a class of the package: where, the class as it is
at that point, and the class as it is when the import has finished. -/
def snapshots : List Py.Snapshot :=
  [⟨"rfc3709.py:33", Rfc5280.AlgorithmIdentifier, Rfc5280.AlgorithmIdentifier⟩,
   ⟨"rfc3709.py:44", Rfc3709.HashAlgAndValue, Rfc3709.HashAlgAndValue⟩,
   ⟨"rfc3709.py:70", Rfc3709.LogotypeDetails, Rfc3709.LogotypeDetails⟩,
   ⟨"rfc3709.py:71", Rfc3709.LogotypeAudioInfo, Rfc3709.LogotypeAudioInfo⟩,
   ⟨"rfc3709.py:101", Rfc3709.LogotypeImageType, Rfc3709.LogotypeImageType⟩,
   ⟨"rfc3709.py:107", Rfc3709.LogotypeImageResolution, Rfc3709.LogotypeImageResolution⟩,
   ⟨"rfc3709.py:117", Rfc3709.LogotypeDetails, Rfc3709.LogotypeDetails⟩,
   ⟨"rfc3709.py:118", Rfc3709.LogotypeImageInfo, Rfc3709.LogotypeImageInfo⟩,
   ⟨"rfc3709.py:127", Rfc3709.LogotypeImage, Rfc3709.LogotypeImage⟩,
   ⟨"rfc3709.py:129", Rfc3709.LogotypeAudio, Rfc3709.LogotypeAudio⟩,
   ⟨"rfc3709.py:140", Rfc3709.HashAlgAndValue, Rfc3709.HashAlgAndValue⟩,
   ⟨"rfc3709.py:153", Rfc3709.LogotypeData, Rfc3709.LogotypeData⟩,
   ⟨"rfc3709.py:155", Rfc3709.LogotypeReference, Rfc3709.LogotypeReference⟩,
   ⟨"rfc3709.py:174", Rfc3709.LogotypeInfo, Rfc3709.LogotypeInfo⟩,
   ⟨"rfc3709.py:188", Rfc3709.LogotypeInfo, Rfc3709.LogotypeInfo⟩,
   ⟨"rfc3709.py:190", Rfc3709.LogotypeInfo, Rfc3709.LogotypeInfo⟩,
   ⟨"rfc3709.py:192", Rfc3709.LogotypeInfo, Rfc3709.LogotypeInfo⟩,
   ⟨"rfc3709.py:195", Rfc3709.OtherLogotypeInfo, Rfc3709.OtherLogotypeInfo⟩,
   ⟨"rfc3709.py:204", Rfc3709.LogotypeExtn, Rfc3709.LogotypeExtn⟩]

/-- Functions rfc3709.py defines. -/
def builders : List (String × (List Py.OidArg → Py.Obj)) :=
  []

def asModule : Py.Module :=
  { id := (Py.mod 46 "rfc3709"), imports := imports, effects := effects, classes := classes, objects := objects, protos := protos, snapshots := snapshots, builders := builders }

end Rfc3709
end Verif
