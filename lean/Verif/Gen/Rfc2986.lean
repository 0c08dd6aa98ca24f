import Verif.Py.Obj
import Verif.Gen.Rfc5280

/-! Transcription of /repo/pyasn1_modules/rfc2986.py (generated by tools/gen.py). -/

namespace Verif
namespace Rfc2986

/-- rfc2986.py:23 -/
def MAX : Py.Bound :=
  .inf

/-- rfc2986.py:26 alias of `rfc5280.AttributeType` -/
def AttributeType : Py.Obj :=
  Rfc5280.AttributeType

/-- rfc2986.py:28 alias of `rfc5280.AttributeValue` -/
def AttributeValue : Py.Obj :=
  Rfc5280.AttributeValue

/-- rfc2986.py:30 alias of `rfc5280.AttributeTypeAndValue` -/
def AttributeTypeAndValue : Py.Obj :=
  Rfc5280.AttributeTypeAndValue

/-- rfc2986.py:32 alias of `rfc5280.Attribute` -/
def Attribute : Py.Obj :=
  Rfc5280.Attribute

/-- rfc2986.py:34 alias of `rfc5280.RelativeDistinguishedName` -/
def RelativeDistinguishedName : Py.Obj :=
  Rfc5280.RelativeDistinguishedName

/-- rfc2986.py:36 alias of `rfc5280.RDNSequence` -/
def RDNSequence : Py.Obj :=
  Rfc5280.RDNSequence

/-- rfc2986.py:38 alias of `rfc5280.Name` -/
def Name : Py.Obj :=
  Rfc5280.Name

/-- rfc2986.py:40 alias of `rfc5280.AlgorithmIdentifier` -/
def AlgorithmIdentifier : Py.Obj :=
  Rfc5280.AlgorithmIdentifier

/-- rfc2986.py:42 alias of `rfc5280.SubjectPublicKeyInfo` -/
def SubjectPublicKeyInfo : Py.Obj :=
  Rfc5280.SubjectPublicKeyInfo

/-- rfc2986.py:45-46 `class Attributes(univ.SetOf)` -/
def Attributes__0 : Py.Obj :=
  Py.univ.SetOf

/-- rfc2986.py:49 `Attributes.componentType = ...` -/
def Attributes : Py.Obj :=
  Rfc2986.Attributes__0.setComponentTypeOf Rfc2986.Attribute.call

/-- rfc2986.py:52-53 `class CertificationRequestInfo(univ.Sequence)` -/
def CertificationRequestInfo__0 : Py.Obj :=
  Py.univ.Sequence

/-- rfc2986.py:56-64 `CertificationRequestInfo.componentType = ...` -/
def CertificationRequestInfo : Py.Obj :=
  Rfc2986.CertificationRequestInfo__0.setComponentType (Py.NamedTypes [
    Py.NamedType "version" Py.univ.Integer.call,
    Py.NamedType "subject" Rfc2986.Name.call,
    Py.NamedType "subjectPKInfo" Rfc2986.SubjectPublicKeyInfo.call,
    Py.NamedType "attributes" (Rfc2986.Attributes.call.implicitTag (Py.Tag .context false 0))])

/-- rfc2986.py:67-68 `class CertificationRequest(univ.Sequence)` -/
def CertificationRequest__0 : Py.Obj :=
  Py.univ.Sequence

/-- rfc2986.py:71-75 `CertificationRequest.componentType = ...` -/
def CertificationRequest : Py.Obj :=
  Rfc2986.CertificationRequest__0.setComponentType (Py.NamedTypes [
    Py.NamedType "certificationRequestInfo" Rfc2986.CertificationRequestInfo.call,
    Py.NamedType "signatureAlgorithm" Rfc2986.AlgorithmIdentifier.call,
    Py.NamedType "signature" Py.univ.BitString.call])

/-- Modules of this package imported by rfc2986.py, in textual order. -/
def imports : List Py.Ident :=
  [(Py.mod 15 "rfc5280")]

/-- Dictionary operations executed when rfc2986.py is imported, in program order. -/
def effects : List Py.Effect :=
  []

/-- ASN.1 types rfc2986.py binds at module level (final version of each name), plus nested classes. -/
def classes : List (String × Py.Obj) :=
  [("rfc2986.AttributeType", Rfc2986.AttributeType),
   ("rfc2986.AttributeValue", Rfc2986.AttributeValue),
   ("rfc2986.AttributeTypeAndValue", Rfc2986.AttributeTypeAndValue),
   ("rfc2986.Attribute", Rfc2986.Attribute),
   ("rfc2986.RelativeDistinguishedName", Rfc2986.RelativeDistinguishedName),
   ("rfc2986.RDNSequence", Rfc2986.RDNSequence),
   ("rfc2986.Name", Rfc2986.Name),
   ("rfc2986.AlgorithmIdentifier", Rfc2986.AlgorithmIdentifier),
   ("rfc2986.SubjectPublicKeyInfo", Rfc2986.SubjectPublicKeyInfo),
   ("rfc2986.Attributes", Rfc2986.Attributes),
   ("rfc2986.CertificationRequestInfo", Rfc2986.CertificationRequestInfo),
   ("rfc2986.CertificationRequest", Rfc2986.CertificationRequest)]

/-- pyasn1 instances rfc2986.py binds at module level. -/
def objects : List (String × Py.Obj) :=
  []

/-- pyasn1 instances rfc2986.py fills in by item assignment. -/
def protos : List (String × Py.Proto) :=
  []

/-- Every place of rfc2986.py that instantiates a class of the package: where, the class as it is
at that point, and the class as it is when the import has finished. -/
def snapshots : List Py.Snapshot :=
  [⟨"rfc2986.py:49", Rfc2986.Attribute, Rfc2986.Attribute⟩,
   ⟨"rfc2986.py:58", Rfc2986.Name, Rfc2986.Name⟩,
   ⟨"rfc2986.py:59", Rfc2986.SubjectPublicKeyInfo, Rfc2986.SubjectPublicKeyInfo⟩,
   ⟨"rfc2986.py:61", Rfc2986.Attributes, Rfc2986.Attributes⟩,
   ⟨"rfc2986.py:72", Rfc2986.CertificationRequestInfo, Rfc2986.CertificationRequestInfo⟩,
   ⟨"rfc2986.py:73", Rfc2986.AlgorithmIdentifier, Rfc2986.AlgorithmIdentifier⟩]

/-- Functions rfc2986.py defines. -/
def builders : List (String × (List Py.OidArg → Py.Obj)) :=
  []

def asModule : Py.Module :=
  { id := (Py.mod 25 "rfc2986"), imports := imports, effects := effects, classes := classes, objects := objects, protos := protos, snapshots := snapshots, builders := builders }

end Rfc2986
end Verif
