import Verif.Py.Obj
import Verif.Gen.Rfc5280

/-! Transcription of /repo/pyasn1_modules/rfc3770.py (generated by tools/gen.py). -/

namespace Verif
namespace Rfc3770

/-- rfc3770.py:23 -/
def MAX : Py.Bound :=
  .inf

/-- rfc3770.py:28 -/
def id_kp_eapOverLAN : Py.Obj :=
  (Py.univ.ObjectIdentifier.call.callArcs [1, 3, 6, 1, 5, 5, 7, 3, 14])

/-- rfc3770.py:30 -/
def id_kp_eapOverPPP : Py.Obj :=
  (Py.univ.ObjectIdentifier.call.callArcs [1, 3, 6, 1, 5, 5, 7, 3, 13])

/-- rfc3770.py:35 -/
def id_pe_wlanSSID : Py.Obj :=
  (Py.univ.ObjectIdentifier.call.callArcs [1, 3, 6, 1, 5, 5, 7, 1, 13])

/-- rfc3770.py:38-39 `class SSID(univ.OctetString)` -/
def SSID__0 : Py.Obj :=
  Py.univ.OctetString

/-- rfc3770.py:41 `SSID.subtypeSpec = ...` -/
def SSID : Py.Obj :=
  Rfc3770.SSID__0.setSubtypeSpec (Py.ValueSizeConstraint (.fin 1) (.fin 32))

/-- rfc3770.py:44-45 `class SSIDList(univ.SequenceOf)` -/
def SSIDList__0 : Py.Obj :=
  Py.univ.SequenceOf

/-- rfc3770.py:47 `SSIDList.componentType = ...` -/
def SSIDList__1 : Py.Obj :=
  Rfc3770.SSIDList__0.setComponentTypeOf Rfc3770.SSID.call

/-- rfc3770.py:48 `SSIDList.subtypeSpec = ...` -/
def SSIDList : Py.Obj :=
  Rfc3770.SSIDList__1.setSubtypeSpec (Py.ValueSizeConstraint (.fin 1) Rfc3770.MAX)

/-- rfc3770.py:55 -/
def id_aca_wlanSSID : Py.Obj :=
  (Py.univ.ObjectIdentifier.call.callArcs [1, 3, 6, 1, 5, 5, 7, 10, 7])

/-- rfc3770.py:61-63 -/
def _certificateExtensionsMap : Py.Entries :=
  [(Rfc3770.id_pe_wlanSSID.value, Rfc3770.SSIDList.call.ty)]

/-- rfc3770.py:71-73 -/
def _certificateAttributesMapUpdate : Py.Entries :=
  [(Rfc3770.id_aca_wlanSSID.value, Rfc3770.SSIDList.call.ty)]

/-- Modules of this package imported by rfc3770.py, in textual order. -/
def imports : List Py.Ident :=
  [(Py.mod 15 "rfc5280")]

/-- Dictionary operations executed when rfc3770.py is imported, in program order. -/
def effects : List Py.Effect :=
  [.create (Py.map 51 "rfc3770._certificateExtensionsMap") Rfc3770._certificateExtensionsMap /- rfc3770.py:61-63 -/,
   .update (Py.map 48 "rfc5280.certificateExtensionsMap") Rfc3770._certificateExtensionsMap /- rfc3770.py:65 -/,
   .create (Py.map 52 "rfc3770._certificateAttributesMapUpdate") Rfc3770._certificateAttributesMapUpdate /- rfc3770.py:71-73 -/,
   .update (Py.map 4 "rfc5280.certificateAttributesMap") Rfc3770._certificateAttributesMapUpdate /- rfc3770.py:75 -/]

/-- ASN.1 types rfc3770.py binds at module level (final version of each name), plus nested classes. -/
def classes : List (String × Py.Obj) :=
  [("rfc3770.SSID", Rfc3770.SSID),
   ("rfc3770.SSIDList", Rfc3770.SSIDList)]

/-- pyasn1 instances rfc3770.py binds at module level. -/
def objects : List (String × Py.Obj) :=
  [("rfc3770.id_kp_eapOverLAN", Rfc3770.id_kp_eapOverLAN),
   ("rfc3770.id_kp_eapOverPPP", Rfc3770.id_kp_eapOverPPP),
   ("rfc3770.id_pe_wlanSSID", Rfc3770.id_pe_wlanSSID),
   ("rfc3770.id_aca_wlanSSID", Rfc3770.id_aca_wlanSSID)]

/-- pyasn1 instances rfc3770.py fills in by item assignment. -/
def protos : List (String × Py.Proto) :=
  []

/-- Every place of rfc3770.py that instantiates a class of the package: where, the class as it is
at that point, and the class as it is when the import has finished. -/
def snapshots : List Py.Snapshot :=
  [⟨"rfc3770.py:47", Rfc3770.SSID, Rfc3770.SSID⟩,
   ⟨"rfc3770.py:62", Rfc3770.SSIDList, Rfc3770.SSIDList⟩,
   ⟨"rfc3770.py:72", Rfc3770.SSIDList, Rfc3770.SSIDList⟩]

/-- Functions rfc3770.py defines. -/
def builders : List (String × (List Py.OidArg → Py.Obj)) :=
  []

def asModule : Py.Module :=
  { id := (Py.mod 48 "rfc3770"), imports := imports, effects := effects, classes := classes, objects := objects, protos := protos, snapshots := snapshots, builders := builders }

end Rfc3770
end Verif
