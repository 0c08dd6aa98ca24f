import Verif.Py.Obj
import Verif.Gen.Rfc1905

/-! Transcription of /repo/pyasn1_modules/rfc3412.py (generated by tools/gen.py). -/

namespace Verif
namespace Rfc3412

/-- rfc3412.py:19-24 `class ScopedPDU(univ.Sequence)` -/
def ScopedPDU : Py.Obj :=
  Py.univ.Sequence.setComponentType (Py.NamedTypes [
    Py.NamedType "contextEngineId" Py.univ.OctetString.call,
    Py.NamedType "contextName" Py.univ.OctetString.call,
    Py.NamedType "data" Rfc1905.PDUs.call])

/-- rfc3412.py:27-31 `class ScopedPduData(univ.Choice)` -/
def ScopedPduData : Py.Obj :=
  Py.univ.Choice.setComponentType (Py.NamedTypes [
    Py.NamedType "plaintext" Rfc3412.ScopedPDU.call,
    Py.NamedType "encryptedPDU" Py.univ.OctetString.call])

/-- rfc3412.py:34-43 `class HeaderData(univ.Sequence)` -/
def HeaderData : Py.Obj :=
  Py.univ.Sequence.setComponentType (Py.NamedTypes [
    Py.NamedType "msgID" (Py.univ.Integer.call.addSubtypeSpec (Py.ValueRangeConstraint (.fin 0) (.fin 2147483647))),
    Py.NamedType "msgMaxSize" (Py.univ.Integer.call.addSubtypeSpec (Py.ValueRangeConstraint (.fin 484) (.fin 2147483647))),
    Py.NamedType "msgFlags" (Py.univ.OctetString.call.addSubtypeSpec (Py.ValueSizeConstraint (.fin 1) (.fin 1))),
    Py.NamedType "msgSecurityModel" (Py.univ.Integer.call.addSubtypeSpec (Py.ValueRangeConstraint (.fin 1) (.fin 2147483647)))])

/-- rfc3412.py:46-53 `class SNMPv3Message(univ.Sequence)` -/
def SNMPv3Message : Py.Obj :=
  Py.univ.Sequence.setComponentType (Py.NamedTypes [
    Py.NamedType "msgVersion" (Py.univ.Integer.call.addSubtypeSpec (Py.ValueRangeConstraint (.fin 0) (.fin 2147483647))),
    Py.NamedType "msgGlobalData" Rfc3412.HeaderData.call,
    Py.NamedType "msgSecurityParameters" Py.univ.OctetString.call,
    Py.NamedType "msgData" Rfc3412.ScopedPduData.call])

/-- Modules of this package imported by rfc3412.py, in textual order. -/
def imports : List Py.Ident :=
  [(Py.mod 4 "rfc1905")]

/-- Dictionary operations executed when rfc3412.py is imported, in program order. -/
def effects : List Py.Effect :=
  []

/-- ASN.1 types rfc3412.py binds at module level (final version of each name), plus nested classes. -/
def classes : List (String × Py.Obj) :=
  [("rfc3412.ScopedPDU", Rfc3412.ScopedPDU),
   ("rfc3412.ScopedPduData", Rfc3412.ScopedPduData),
   ("rfc3412.HeaderData", Rfc3412.HeaderData),
   ("rfc3412.SNMPv3Message", Rfc3412.SNMPv3Message)]

/-- pyasn1 instances rfc3412.py binds at module level. -/
def objects : List (String × Py.Obj) :=
  []

/-- pyasn1 instances rfc3412.py fills in by item assignment. -/
def protos : List (String × Py.Proto) :=
  []

/-- Every place of rfc3412.py that instantiates a class of the package: where, the class as it is
at that point, and the class as it is when the import has finished. -/
def snapshots : List Py.Snapshot :=
  [⟨"rfc3412.py:23", Rfc1905.PDUs, Rfc1905.PDUs⟩,
   ⟨"rfc3412.py:29", Rfc3412.ScopedPDU, Rfc3412.ScopedPDU⟩,
   ⟨"rfc3412.py:50", Rfc3412.HeaderData, Rfc3412.HeaderData⟩,
   ⟨"rfc3412.py:52", Rfc3412.ScopedPduData, Rfc3412.ScopedPduData⟩]

/-- Functions rfc3412.py defines. -/
def builders : List (String × (List Py.OidArg → Py.Obj)) :=
  []

def asModule : Py.Module :=
  { id := (Py.mod 38 "rfc3412"), imports := imports, effects := effects, classes := classes, objects := objects, protos := protos, snapshots := snapshots, builders := builders }

end Rfc3412
end Verif
