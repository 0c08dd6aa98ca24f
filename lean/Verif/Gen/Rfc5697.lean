import Verif.Py.Obj
import Verif.Gen.Rfc5280
import Verif.Gen.Rfc4055

/-! Transcription of /repo/pyasn1_modules/rfc5697.py (generated by tools/gen.py). -/

namespace Verif
namespace Rfc5697

/-- rfc5697.py:22 alias of `rfc5280.AlgorithmIdentifier` -/
def AlgorithmIdentifier : Py.Obj :=
  Rfc5280.AlgorithmIdentifier

/-- rfc5697.py:24 alias of `rfc5280.CertificateSerialNumber` -/
def CertificateSerialNumber : Py.Obj :=
  Rfc5280.CertificateSerialNumber

/-- rfc5697.py:26 alias of `rfc5280.GeneralNames` -/
def GeneralNames : Py.Obj :=
  Rfc5280.GeneralNames

/-- rfc5697.py:31 alias of `rfc4055.id_sha1` -/
def id_sha1 : Py.Obj :=
  Rfc4055.id_sha1

/-- rfc5697.py:37-41 `class SCVPIssuerSerial(univ.Sequence)` -/
def SCVPIssuerSerial : Py.Obj :=
  Py.univ.Sequence.setComponentType (Py.NamedTypes [
    Py.NamedType "issuer" Rfc5697.GeneralNames.call,
    Py.NamedType "serialNumber" Rfc5697.CertificateSerialNumber.call])

/-- rfc5697.py:44 -/
def sha1_alg_id__0 : Py.Proto :=
  { obj := Rfc5697.AlgorithmIdentifier.call }

/-- rfc5697.py:45 `sha1_alg_id['algorithm'] = ...` -/
def sha1_alg_id : Py.Proto :=
  Rfc5697.sha1_alg_id__0.set "algorithm" (.obj Rfc5697.id_sha1)

/-- rfc5697.py:48-53 `class SCVPCertID(univ.Sequence)` -/
def SCVPCertID : Py.Obj :=
  Py.univ.Sequence.setComponentType (Py.NamedTypes [
    Py.NamedType "certHash" Py.univ.OctetString.call,
    Py.NamedType "issuerSerial" Rfc5697.SCVPIssuerSerial.call,
    Py.DefaultedNamedType "hashAlgorithm" Rfc5697.sha1_alg_id.toObj])

/-- rfc5697.py:58 -/
def id_pe_otherCerts : Py.Obj :=
  (Py.univ.ObjectIdentifier.call.callArcs [1, 3, 6, 1, 5, 5, 7, 1, 19])

/-- rfc5697.py:60-61 `class OtherCertificates(univ.SequenceOf)` -/
def OtherCertificates : Py.Obj :=
  Py.univ.SequenceOf.setComponentTypeOf Rfc5697.SCVPCertID.call

/-- rfc5697.py:66-68 -/
def _certificateExtensionsMapUpdate : Py.Entries :=
  [(Rfc5697.id_pe_otherCerts.value, Rfc5697.OtherCertificates.call.ty)]

/-- Modules of this package imported by rfc5697.py, in textual order. -/
def imports : List Py.Ident :=
  [(Py.mod 15 "rfc5280"), (Py.mod 42 "rfc4055")]

/-- Dictionary operations executed when rfc5697.py is imported, in program order. -/
def effects : List Py.Effect :=
  [.create (Py.map 86 "rfc5697._certificateExtensionsMapUpdate") Rfc5697._certificateExtensionsMapUpdate /- rfc5697.py:66-68 -/,
   .update (Py.map 48 "rfc5280.certificateExtensionsMap") Rfc5697._certificateExtensionsMapUpdate /- rfc5697.py:70 -/]

/-- ASN.1 types rfc5697.py binds at module level (final version of each name), plus nested classes. -/
def classes : List (String × Py.Obj) :=
  [("rfc5697.AlgorithmIdentifier", Rfc5697.AlgorithmIdentifier),
   ("rfc5697.CertificateSerialNumber", Rfc5697.CertificateSerialNumber),
   ("rfc5697.GeneralNames", Rfc5697.GeneralNames),
   ("rfc5697.SCVPIssuerSerial", Rfc5697.SCVPIssuerSerial),
   ("rfc5697.SCVPCertID", Rfc5697.SCVPCertID),
   ("rfc5697.OtherCertificates", Rfc5697.OtherCertificates)]

/-- pyasn1 instances rfc5697.py binds at module level. -/
def objects : List (String × Py.Obj) :=
  [("rfc5697.id_sha1", Rfc5697.id_sha1),
   ("rfc5697.id_pe_otherCerts", Rfc5697.id_pe_otherCerts)]

/-- pyasn1 instances rfc5697.py fills in by item assignment. -/
def protos : List (String × Py.Proto) :=
  [("rfc5697.sha1_alg_id", Rfc5697.sha1_alg_id)]

/-- Every place of rfc5697.py that instantiates a class of the package: where, the class as it is
at that point, and the class as it is when the import has finished. -/
def snapshots : List Py.Snapshot :=
  [⟨"rfc5697.py:39", Rfc5697.GeneralNames, Rfc5697.GeneralNames⟩,
   ⟨"rfc5697.py:40", Rfc5697.CertificateSerialNumber, Rfc5697.CertificateSerialNumber⟩,
   ⟨"rfc5697.py:44", Rfc5697.AlgorithmIdentifier, Rfc5697.AlgorithmIdentifier⟩,
   ⟨"rfc5697.py:51", Rfc5697.SCVPIssuerSerial, Rfc5697.SCVPIssuerSerial⟩,
   ⟨"rfc5697.py:61", Rfc5697.SCVPCertID, Rfc5697.SCVPCertID⟩,
   ⟨"rfc5697.py:67", Rfc5697.OtherCertificates, Rfc5697.OtherCertificates⟩]

/-- Functions rfc5697.py defines. -/
def builders : List (String × (List Py.OidArg → Py.Obj)) :=
  []

def asModule : Py.Module :=
  { id := (Py.mod 75 "rfc5697"), imports := imports, effects := effects, classes := classes, objects := objects, protos := protos, snapshots := snapshots, builders := builders }

end Rfc5697
end Verif
