import Verif.Py.Obj
import Verif.Gen.Rfc2459

/-! Transcription of /repo/pyasn1_modules/rfc2314.py (generated by tools/gen.py). -/

namespace Verif
namespace Rfc2314

/-- rfc2314.py:17-18 `class Attributes(univ.SetOf)` -/
def Attributes : Py.Obj :=
  Py.univ.SetOf.setComponentTypeOf Rfc2459.Attribute.call

/-- rfc2314.py:21-22 `class Version(univ.Integer)` -/
def Version : Py.Obj :=
  Py.univ.Integer

/-- rfc2314.py:25-32 `class CertificationRequestInfo(univ.Sequence)` -/
def CertificationRequestInfo : Py.Obj :=
  Py.univ.Sequence.setComponentType (Py.NamedTypes [
    Py.NamedType "version" Rfc2314.Version.call,
    Py.NamedType "subject" Rfc2459.Name.call,
    Py.NamedType "subjectPublicKeyInfo" Rfc2459.SubjectPublicKeyInfo.call,
    Py.NamedType "attributes" (Rfc2314.Attributes.call.implicitTag (Py.Tag .context true 0))])

/-- rfc2314.py:35-36 `class Signature(univ.BitString)` -/
def Signature : Py.Obj :=
  Py.univ.BitString

/-- rfc2314.py:39-40 `class SignatureAlgorithmIdentifier(AlgorithmIdentifier)` -/
def SignatureAlgorithmIdentifier : Py.Obj :=
  Rfc2459.AlgorithmIdentifier

/-- rfc2314.py:43-48 `class CertificationRequest(univ.Sequence)` -/
def CertificationRequest : Py.Obj :=
  Py.univ.Sequence.setComponentType (Py.NamedTypes [
    Py.NamedType "certificationRequestInfo" Rfc2314.CertificationRequestInfo.call,
    Py.NamedType "signatureAlgorithm" Rfc2314.SignatureAlgorithmIdentifier.call,
    Py.NamedType "signature" Rfc2314.Signature.call])

/-- Modules of this package imported by rfc2314.py, in textual order. -/
def imports : List Py.Ident :=
  [(Py.mod 6 "rfc2459")]

/-- Dictionary operations executed when rfc2314.py is imported, in program order. -/
def effects : List Py.Effect :=
  []

/-- ASN.1 types rfc2314.py binds at module level (final version of each name), plus nested classes. -/
def classes : List (String × Py.Obj) :=
  [("rfc2314.Version", Rfc2314.Version),
   ("rfc2314.Attributes", Rfc2314.Attributes),
   ("rfc2314.CertificationRequestInfo", Rfc2314.CertificationRequestInfo),
   ("rfc2314.Signature", Rfc2314.Signature),
   ("rfc2314.SignatureAlgorithmIdentifier", Rfc2314.SignatureAlgorithmIdentifier),
   ("rfc2314.CertificationRequest", Rfc2314.CertificationRequest)]

/-- pyasn1 instances rfc2314.py binds at module level. -/
def objects : List (String × Py.Obj) :=
  []

/-- pyasn1 instances rfc2314.py fills in by item assignment. -/
def protos : List (String × Py.Proto) :=
  []

/-- Every place of rfc2314.py that instantiates a class of the package: where, the class as it is
at that point, and the class as it is when the import has finished. -/
def snapshots : List Py.Snapshot :=
  [⟨"rfc2314.py:18", Rfc2459.Attribute, Rfc2459.Attribute⟩,
   ⟨"rfc2314.py:27", Rfc2314.Version, Rfc2314.Version⟩,
   ⟨"rfc2314.py:28", Rfc2459.Name, Rfc2459.Name⟩,
   ⟨"rfc2314.py:29", Rfc2459.SubjectPublicKeyInfo, Rfc2459.SubjectPublicKeyInfo⟩,
   ⟨"rfc2314.py:31", Rfc2314.Attributes, Rfc2314.Attributes⟩,
   ⟨"rfc2314.py:45", Rfc2314.CertificationRequestInfo, Rfc2314.CertificationRequestInfo⟩,
   ⟨"rfc2314.py:46", Rfc2314.SignatureAlgorithmIdentifier, Rfc2314.SignatureAlgorithmIdentifier⟩,
   ⟨"rfc2314.py:47", Rfc2314.Signature, Rfc2314.Signature⟩]

/-- Functions rfc2314.py defines. -/
def builders : List (String × (List Py.OidArg → Py.Obj)) :=
  []

def asModule : Py.Module :=
  { id := (Py.mod 7 "rfc2314"), imports := imports, effects := effects, classes := classes, objects := objects, protos := protos, snapshots := snapshots, builders := builders }

end Rfc2314
end Verif
