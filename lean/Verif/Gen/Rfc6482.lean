import Verif.Py.Obj
import Verif.Gen.Rfc5652

/-! Transcription of /repo/pyasn1_modules/rfc6482.py (generated by tools/gen.py). -/

namespace Verif
namespace Rfc6482

/-- rfc6482.py:23 -/
def MAX : Py.Bound :=
  .inf

/-- rfc6482.py:26 -/
def id_ct_routeOriginAuthz : Py.Obj :=
  (Py.univ.ObjectIdentifier.call.callArcs [1, 2, 840, 113549, 1, 9, 16, 1, 24])

/-- rfc6482.py:29-30 `class ASID(univ.Integer)` -/
def ASID : Py.Obj :=
  Py.univ.Integer

/-- rfc6482.py:33-34 `class IPAddress(univ.BitString)` -/
def IPAddress : Py.Obj :=
  Py.univ.BitString

/-- rfc6482.py:37-41 `class ROAIPAddress(univ.Sequence)` -/
def ROAIPAddress : Py.Obj :=
  Py.univ.Sequence.setComponentType (Py.NamedTypes [
    Py.NamedType "address" Rfc6482.IPAddress.call,
    Py.OptionalNamedType "maxLength" Py.univ.Integer.call])

/-- rfc6482.py:44-52 `class ROAIPAddressFamily(univ.Sequence)` -/
def ROAIPAddressFamily : Py.Obj :=
  Py.univ.Sequence.setComponentType (Py.NamedTypes [
    Py.NamedType "addressFamily" (Py.univ.OctetString.call.addSubtypeSpec (Py.ValueSizeConstraint (.fin 2) (.fin 3))),
    Py.NamedType "addresses" ((Py.univ.SequenceOf.call.setComponentTypeOf Rfc6482.ROAIPAddress.call).addSubtypeSpec (Py.ValueSizeConstraint (.fin 1) Rfc6482.MAX))])

/-- rfc6482.py:55-64 `class RouteOriginAttestation(univ.Sequence)` -/
def RouteOriginAttestation : Py.Obj :=
  Py.univ.Sequence.setComponentType (Py.NamedTypes [
    Py.DefaultedNamedType "version" ((Py.univ.Integer.call.explicitTag (Py.Tag .context false 0)).callInt 0),
    Py.NamedType "asID" Rfc6482.ASID.call,
    Py.NamedType "ipAddrBlocks" ((Py.univ.SequenceOf.call.setComponentTypeOf Rfc6482.ROAIPAddressFamily.call).addSubtypeSpec (Py.ValueSizeConstraint (.fin 1) Rfc6482.MAX))])

/-- rfc6482.py:70-72 -/
def _cmsContentTypesMapUpdate : Py.Entries :=
  [(Rfc6482.id_ct_routeOriginAuthz.value, Rfc6482.RouteOriginAttestation.call.ty)]

/-- Modules of this package imported by rfc6482.py, in textual order. -/
def imports : List Py.Ident :=
  [(Py.mod 16 "rfc5652")]

/-- Dictionary operations executed when rfc6482.py is imported, in program order. -/
def effects : List Py.Effect :=
  [.create (Py.map 113 "rfc6482._cmsContentTypesMapUpdate") Rfc6482._cmsContentTypesMapUpdate /- rfc6482.py:70-72 -/,
   .update (Py.map 13 "rfc5652.cmsContentTypesMap") Rfc6482._cmsContentTypesMapUpdate /- rfc6482.py:74 -/]

/-- ASN.1 types rfc6482.py binds at module level (final version of each name), plus nested classes. -/
def classes : List (String × Py.Obj) :=
  [("rfc6482.ASID", Rfc6482.ASID),
   ("rfc6482.IPAddress", Rfc6482.IPAddress),
   ("rfc6482.ROAIPAddress", Rfc6482.ROAIPAddress),
   ("rfc6482.ROAIPAddressFamily", Rfc6482.ROAIPAddressFamily),
   ("rfc6482.RouteOriginAttestation", Rfc6482.RouteOriginAttestation)]

/-- pyasn1 instances rfc6482.py binds at module level. -/
def objects : List (String × Py.Obj) :=
  [("rfc6482.id_ct_routeOriginAuthz", Rfc6482.id_ct_routeOriginAuthz)]

/-- pyasn1 instances rfc6482.py fills in by item assignment. -/
def protos : List (String × Py.Proto) :=
  []

/-- Every place of rfc6482.py that instantiates a class of the package: where, the class as it is
at that point, and the class as it is when the import has finished. -/
def snapshots : List Py.Snapshot :=
  [⟨"rfc6482.py:39", Rfc6482.IPAddress, Rfc6482.IPAddress⟩,
   ⟨"rfc6482.py:50", Rfc6482.ROAIPAddress, Rfc6482.ROAIPAddress⟩,
   ⟨"rfc6482.py:60", Rfc6482.ASID, Rfc6482.ASID⟩,
   ⟨"rfc6482.py:62", Rfc6482.ROAIPAddressFamily, Rfc6482.ROAIPAddressFamily⟩,
   ⟨"rfc6482.py:71", Rfc6482.RouteOriginAttestation, Rfc6482.RouteOriginAttestation⟩]

/-- Functions rfc6482.py defines. -/
def builders : List (String × (List Py.OidArg → Py.Obj)) :=
  []

def asModule : Py.Module :=
  { id := (Py.mod 94 "rfc6482"), imports := imports, effects := effects, classes := classes, objects := objects, protos := protos, snapshots := snapshots, builders := builders }

end Rfc6482
end Verif
