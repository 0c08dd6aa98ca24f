import Verif.Py.Obj
import Verif.Gen.Rfc5280

/-! Transcription of /repo/pyasn1_modules/rfc4334.py (generated by tools/gen.py). -/

namespace Verif
namespace Rfc4334

/-- rfc4334.py:21 -/
def MAX : Py.Bound :=
  .inf

/-- rfc4334.py:26 -/
def id_pe : Py.Obj :=
  (Py.univ.ObjectIdentifier.call.callArcs [1, 3, 6, 1, 5, 5, 7, 1])

/-- rfc4334.py:28 -/
def id_kp : Py.Obj :=
  (Py.univ.ObjectIdentifier.call.callArcs [1, 3, 6, 1, 5, 5, 7, 3])

/-- rfc4334.py:30 -/
def id_aca : Py.Obj :=
  (Py.univ.ObjectIdentifier.call.callArcs [1, 3, 6, 1, 5, 5, 7, 10])

/-- rfc4334.py:35 -/
def id_kp_eapOverPPP : Py.Obj :=
  (Rfc4334.id_kp.addArcs [13])

/-- rfc4334.py:37 -/
def id_kp_eapOverLAN : Py.Obj :=
  (Rfc4334.id_kp.addArcs [14])

/-- rfc4334.py:42 -/
def id_pe_wlanSSID : Py.Obj :=
  (Rfc4334.id_pe.addArcs [13])

/-- rfc4334.py:44-45 `class SSID(univ.OctetString)` (body evaluates `constraint.ValueSizeConstraint(1, 32)` and discards it) -/
def SSID : Py.Obj :=
  Py.univ.OctetString

/-- rfc4334.py:48-50 `class SSIDList(univ.SequenceOf)` -/
def SSIDList : Py.Obj :=
  (Py.univ.SequenceOf.setComponentTypeOf Rfc4334.SSID.call).setSubtypeSpec (Py.ValueSizeConstraint (.fin 1) Rfc4334.MAX)

/-- rfc4334.py:55 -/
def id_aca_wlanSSID : Py.Obj :=
  (Rfc4334.id_aca.addArcs [7])

/-- rfc4334.py:61-63 -/
def _certificateExtensionsMap : Py.Entries :=
  [(Rfc4334.id_pe_wlanSSID.value, Rfc4334.SSIDList.call.ty)]

/-- rfc4334.py:71-73 -/
def _certificateAttributesMapUpdate : Py.Entries :=
  [(Rfc4334.id_aca_wlanSSID.value, Rfc4334.SSIDList.call.ty)]

/-- Modules of this package imported by rfc4334.py, in textual order. -/
def imports : List Py.Ident :=
  [(Py.mod 15 "rfc5280")]

/-- Dictionary operations executed when rfc4334.py is imported, in program order. -/
def effects : List Py.Effect :=
  [.create (Py.map 63 "rfc4334._certificateExtensionsMap") Rfc4334._certificateExtensionsMap /- rfc4334.py:61-63 -/,
   .update (Py.map 48 "rfc5280.certificateExtensionsMap") Rfc4334._certificateExtensionsMap /- rfc4334.py:65 -/,
   .create (Py.map 64 "rfc4334._certificateAttributesMapUpdate") Rfc4334._certificateAttributesMapUpdate /- rfc4334.py:71-73 -/,
   .update (Py.map 4 "rfc5280.certificateAttributesMap") Rfc4334._certificateAttributesMapUpdate /- rfc4334.py:75 -/]

/-- ASN.1 types rfc4334.py binds at module level (final version of each name), plus nested classes. -/
def classes : List (String × Py.Obj) :=
  [("rfc4334.SSID", Rfc4334.SSID),
   ("rfc4334.SSIDList", Rfc4334.SSIDList)]

/-- pyasn1 instances rfc4334.py binds at module level. -/
def objects : List (String × Py.Obj) :=
  [("rfc4334.id_pe", Rfc4334.id_pe),
   ("rfc4334.id_kp", Rfc4334.id_kp),
   ("rfc4334.id_aca", Rfc4334.id_aca),
   ("rfc4334.id_kp_eapOverPPP", Rfc4334.id_kp_eapOverPPP),
   ("rfc4334.id_kp_eapOverLAN", Rfc4334.id_kp_eapOverLAN),
   ("rfc4334.id_pe_wlanSSID", Rfc4334.id_pe_wlanSSID),
   ("rfc4334.id_aca_wlanSSID", Rfc4334.id_aca_wlanSSID)]

/-- pyasn1 instances rfc4334.py fills in by item assignment. -/
def protos : List (String × Py.Proto) :=
  []

/-- Every place of rfc4334.py that instantiates a class of the package: where, the class as it is
at that point, and the class as it is when the import has finished. -/
def snapshots : List Py.Snapshot :=
  [⟨"rfc4334.py:49", Rfc4334.SSID, Rfc4334.SSID⟩,
   ⟨"rfc4334.py:62", Rfc4334.SSIDList, Rfc4334.SSIDList⟩,
   ⟨"rfc4334.py:72", Rfc4334.SSIDList, Rfc4334.SSIDList⟩]

/-- Functions rfc4334.py defines. -/
def builders : List (String × (List Py.OidArg → Py.Obj)) :=
  []

def asModule : Py.Module :=
  { id := (Py.mod 57 "rfc4334"), imports := imports, effects := effects, classes := classes, objects := objects, protos := protos, snapshots := snapshots, builders := builders }

end Rfc4334
end Verif
