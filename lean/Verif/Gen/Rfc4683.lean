import Verif.Py.Obj
import Verif.Gen.Rfc5280

/-! Transcription of /repo/pyasn1_modules/rfc4683.py (generated by tools/gen.py). -/

namespace Verif
namespace Rfc4683

/-- rfc4683.py:25-31 `class HashContent(univ.Sequence)` -/
def HashContent : Py.Obj :=
  Py.univ.Sequence.setComponentType (Py.NamedTypes [
    Py.NamedType "userPassword" Py.char.UTF8String.call,
    Py.NamedType "authorityRandom" Py.univ.OctetString.call,
    Py.NamedType "identifierType" Py.univ.ObjectIdentifier.call,
    Py.NamedType "identifier" Py.char.UTF8String.call])

/-- rfc4683.py:36 alias of `rfc5280.id_pkix` -/
def id_pkix : Py.Obj :=
  Rfc5280.id_pkix

/-- rfc4683.py:38 -/
def id_on : Py.Obj :=
  (Rfc4683.id_pkix.addArcs [8])

/-- rfc4683.py:40 -/
def id_on_SIM : Py.Obj :=
  (Rfc4683.id_on.addArcs [6])

/-- rfc4683.py:43-48 `class SIM(univ.Sequence)` -/
def SIM : Py.Obj :=
  Py.univ.Sequence.setComponentType (Py.NamedTypes [
    Py.NamedType "hashAlg" Rfc5280.AlgorithmIdentifier.call,
    Py.NamedType "authorityRandom" Py.univ.OctetString.call,
    Py.NamedType "pEPSI" Py.univ.OctetString.call])

/-- rfc4683.py:53 -/
def id_pkip : Py.Obj :=
  (Rfc4683.id_pkix.addArcs [5])

/-- rfc4683.py:55 -/
def id_regEPEPSI : Py.Obj :=
  (Rfc4683.id_pkip.addArcs [3])

/-- rfc4683.py:58-63 `class EncryptedPEPSI(univ.Sequence)` -/
def EncryptedPEPSI : Py.Obj :=
  Py.univ.Sequence.setComponentType (Py.NamedTypes [
    Py.NamedType "identifierType" Py.univ.ObjectIdentifier.call,
    Py.NamedType "identifier" Py.char.UTF8String.call,
    Py.NamedType "sIM" Rfc4683.SIM.call])

/-- rfc4683.py:68-70 -/
def _anotherNameMapUpdate : Py.Entries :=
  [(Rfc4683.id_on_SIM.value, Rfc4683.SIM.call.ty)]

/-- Modules of this package imported by rfc4683.py, in textual order. -/
def imports : List Py.Ident :=
  [(Py.mod 15 "rfc5280")]

/-- Dictionary operations executed when rfc4683.py is imported, in program order. -/
def effects : List Py.Effect :=
  [.create (Py.map 69 "rfc4683._anotherNameMapUpdate") Rfc4683._anotherNameMapUpdate /- rfc4683.py:68-70 -/,
   .update (Py.map 6 "rfc5280.anotherNameMap") Rfc4683._anotherNameMapUpdate /- rfc4683.py:72 -/]

/-- ASN.1 types rfc4683.py binds at module level (final version of each name), plus nested classes. -/
def classes : List (String × Py.Obj) :=
  [("rfc4683.HashContent", Rfc4683.HashContent),
   ("rfc4683.SIM", Rfc4683.SIM),
   ("rfc4683.EncryptedPEPSI", Rfc4683.EncryptedPEPSI)]

/-- pyasn1 instances rfc4683.py binds at module level. -/
def objects : List (String × Py.Obj) :=
  [("rfc4683.id_pkix", Rfc4683.id_pkix),
   ("rfc4683.id_on", Rfc4683.id_on),
   ("rfc4683.id_on_SIM", Rfc4683.id_on_SIM),
   ("rfc4683.id_pkip", Rfc4683.id_pkip),
   ("rfc4683.id_regEPEPSI", Rfc4683.id_regEPEPSI)]

/-- pyasn1 instances rfc4683.py fills in by item assignment. -/
def protos : List (String × Py.Proto) :=
  []

/-- Every place of rfc4683.py that instantiates a class of the package: where, the class as it is
at that point, and the class as it is when the import has finished. -/
def snapshots : List Py.Snapshot :=
  [⟨"rfc4683.py:45", Rfc5280.AlgorithmIdentifier, Rfc5280.AlgorithmIdentifier⟩,
   ⟨"rfc4683.py:62", Rfc4683.SIM, Rfc4683.SIM⟩,
   ⟨"rfc4683.py:69", Rfc4683.SIM, Rfc4683.SIM⟩]

/-- Functions rfc4683.py defines. -/
def builders : List (String × (List Py.OidArg → Py.Obj)) :=
  []

def asModule : Py.Module :=
  { id := (Py.mod 63 "rfc4683"), imports := imports, effects := effects, classes := classes, objects := objects, protos := protos, snapshots := snapshots, builders := builders }

end Rfc4683
end Verif
