import Verif.Py.Obj
import Verif.Gen.Rfc5280

/-! Transcription of /repo/pyasn1_modules/rfc3779.py (generated by tools/gen.py). -/

namespace Verif
namespace Rfc3779

/-- rfc3779.py:26 -/
def id_pe_ipAddrBlocks : Py.Obj :=
  (Py.univ.ObjectIdentifier.call.callArcs [1, 3, 6, 1, 5, 5, 7, 1, 7])

/-- rfc3779.py:29-30 `class IPAddress(univ.BitString)` -/
def IPAddress : Py.Obj :=
  Py.univ.BitString

/-- rfc3779.py:33-34 `class IPAddressRange(univ.Sequence)` -/
def IPAddressRange__0 : Py.Obj :=
  Py.univ.Sequence

/-- rfc3779.py:36-39 `IPAddressRange.componentType = ...` -/
def IPAddressRange : Py.Obj :=
  Rfc3779.IPAddressRange__0.setComponentType (Py.NamedTypes [
    Py.NamedType "min" Rfc3779.IPAddress.call,
    Py.NamedType "max" Rfc3779.IPAddress.call])

/-- rfc3779.py:42-43 `class IPAddressOrRange(univ.Choice)` -/
def IPAddressOrRange__0 : Py.Obj :=
  Py.univ.Choice

/-- rfc3779.py:45-48 `IPAddressOrRange.componentType = ...` -/
def IPAddressOrRange : Py.Obj :=
  Rfc3779.IPAddressOrRange__0.setComponentType (Py.NamedTypes [
    Py.NamedType "addressPrefix" Rfc3779.IPAddress.call,
    Py.NamedType "addressRange" Rfc3779.IPAddressRange.call])

/-- rfc3779.py:51-52 `class IPAddressChoice(univ.Choice)` -/
def IPAddressChoice__0 : Py.Obj :=
  Py.univ.Choice

/-- rfc3779.py:54-59 `IPAddressChoice.componentType = ...` -/
def IPAddressChoice : Py.Obj :=
  Rfc3779.IPAddressChoice__0.setComponentType (Py.NamedTypes [
    Py.NamedType "inherit" Py.univ.Null.call,
    Py.NamedType "addressesOrRanges" (Py.univ.SequenceOf.call.setComponentTypeOf Rfc3779.IPAddressOrRange.call)])

/-- rfc3779.py:62-63 `class IPAddressFamily(univ.Sequence)` -/
def IPAddressFamily__0 : Py.Obj :=
  Py.univ.Sequence

/-- rfc3779.py:65-69 `IPAddressFamily.componentType = ...` -/
def IPAddressFamily : Py.Obj :=
  Rfc3779.IPAddressFamily__0.setComponentType (Py.NamedTypes [
    Py.NamedType "addressFamily" (Py.univ.OctetString.call.addSubtypeSpec (Py.ValueSizeConstraint (.fin 2) (.fin 3))),
    Py.NamedType "ipAddressChoice" Rfc3779.IPAddressChoice.call])

/-- rfc3779.py:72-73 `class IPAddrBlocks(univ.SequenceOf)` -/
def IPAddrBlocks__0 : Py.Obj :=
  Py.univ.SequenceOf

/-- rfc3779.py:75 `IPAddrBlocks.componentType = ...` -/
def IPAddrBlocks : Py.Obj :=
  Rfc3779.IPAddrBlocks__0.setComponentTypeOf Rfc3779.IPAddressFamily.call

/-- rfc3779.py:80 -/
def id_pe_autonomousSysIds : Py.Obj :=
  (Py.univ.ObjectIdentifier.call.callArcs [1, 3, 6, 1, 5, 5, 7, 1, 8])

/-- rfc3779.py:83-84 `class ASId(univ.Integer)` -/
def ASId : Py.Obj :=
  Py.univ.Integer

/-- rfc3779.py:87-88 `class ASRange(univ.Sequence)` -/
def ASRange__0 : Py.Obj :=
  Py.univ.Sequence

/-- rfc3779.py:90-93 `ASRange.componentType = ...` -/
def ASRange : Py.Obj :=
  Rfc3779.ASRange__0.setComponentType (Py.NamedTypes [
    Py.NamedType "min" Rfc3779.ASId.call,
    Py.NamedType "max" Rfc3779.ASId.call])

/-- rfc3779.py:96-97 `class ASIdOrRange(univ.Choice)` -/
def ASIdOrRange__0 : Py.Obj :=
  Py.univ.Choice

/-- rfc3779.py:99-102 `ASIdOrRange.componentType = ...` -/
def ASIdOrRange : Py.Obj :=
  Rfc3779.ASIdOrRange__0.setComponentType (Py.NamedTypes [
    Py.NamedType "id" Rfc3779.ASId.call,
    Py.NamedType "range" Rfc3779.ASRange.call])

/-- rfc3779.py:105-106 `class ASIdentifierChoice(univ.Choice)` -/
def ASIdentifierChoice__0 : Py.Obj :=
  Py.univ.Choice

/-- rfc3779.py:108-113 `ASIdentifierChoice.componentType = ...` -/
def ASIdentifierChoice : Py.Obj :=
  Rfc3779.ASIdentifierChoice__0.setComponentType (Py.NamedTypes [
    Py.NamedType "inherit" Py.univ.Null.call,
    Py.NamedType "asIdsOrRanges" (Py.univ.SequenceOf.call.setComponentTypeOf Rfc3779.ASIdOrRange.call)])

/-- rfc3779.py:116-117 `class ASIdentifiers(univ.Sequence)` -/
def ASIdentifiers__0 : Py.Obj :=
  Py.univ.Sequence

/-- rfc3779.py:119-126 `ASIdentifiers.componentType = ...` -/
def ASIdentifiers : Py.Obj :=
  Rfc3779.ASIdentifiers__0.setComponentType (Py.NamedTypes [
    Py.OptionalNamedType "asnum" (Rfc3779.ASIdentifierChoice.call.explicitTag (Py.Tag .context true 0)),
    Py.OptionalNamedType "rdi" (Rfc3779.ASIdentifierChoice.call.explicitTag (Py.Tag .context true 1))])

/-- rfc3779.py:132-135 -/
def _certificateExtensionsMapUpdate : Py.Entries :=
  [(Rfc3779.id_pe_ipAddrBlocks.value, Rfc3779.IPAddrBlocks.call.ty),
    (Rfc3779.id_pe_autonomousSysIds.value, Rfc3779.ASIdentifiers.call.ty)]

/-- Modules of this package imported by rfc3779.py, in textual order. -/
def imports : List Py.Ident :=
  [(Py.mod 15 "rfc5280")]

/-- Dictionary operations executed when rfc3779.py is imported, in program order. -/
def effects : List Py.Effect :=
  [.create (Py.map 53 "rfc3779._certificateExtensionsMapUpdate") Rfc3779._certificateExtensionsMapUpdate /- rfc3779.py:132-135 -/,
   .update (Py.map 48 "rfc5280.certificateExtensionsMap") Rfc3779._certificateExtensionsMapUpdate /- rfc3779.py:137 -/]

/-- ASN.1 types rfc3779.py binds at module level (final version of each name), plus nested classes. -/
def classes : List (String × Py.Obj) :=
  [("rfc3779.IPAddress", Rfc3779.IPAddress),
   ("rfc3779.IPAddressRange", Rfc3779.IPAddressRange),
   ("rfc3779.IPAddressOrRange", Rfc3779.IPAddressOrRange),
   ("rfc3779.IPAddressChoice", Rfc3779.IPAddressChoice),
   ("rfc3779.IPAddressFamily", Rfc3779.IPAddressFamily),
   ("rfc3779.IPAddrBlocks", Rfc3779.IPAddrBlocks),
   ("rfc3779.ASId", Rfc3779.ASId),
   ("rfc3779.ASRange", Rfc3779.ASRange),
   ("rfc3779.ASIdOrRange", Rfc3779.ASIdOrRange),
   ("rfc3779.ASIdentifierChoice", Rfc3779.ASIdentifierChoice),
   ("rfc3779.ASIdentifiers", Rfc3779.ASIdentifiers)]

/-- pyasn1 instances rfc3779.py binds at module level. -/
def objects : List (String × Py.Obj) :=
  [("rfc3779.id_pe_ipAddrBlocks", Rfc3779.id_pe_ipAddrBlocks),
   ("rfc3779.id_pe_autonomousSysIds", Rfc3779.id_pe_autonomousSysIds)]

/-- pyasn1 instances rfc3779.py fills in by item assignment. -/
def protos : List (String × Py.Proto) :=
  []

/-- Every place of rfc3779.py that instantiates a class of the package: where, the class as it is
at that point, and the class as it is when the import has finished. -/
def snapshots : List Py.Snapshot :=
  [⟨"rfc3779.py:37", Rfc3779.IPAddress, Rfc3779.IPAddress⟩,
   ⟨"rfc3779.py:38", Rfc3779.IPAddress, Rfc3779.IPAddress⟩,
   ⟨"rfc3779.py:46", Rfc3779.IPAddress, Rfc3779.IPAddress⟩,
   ⟨"rfc3779.py:47", Rfc3779.IPAddressRange, Rfc3779.IPAddressRange⟩,
   ⟨"rfc3779.py:57", Rfc3779.IPAddressOrRange, Rfc3779.IPAddressOrRange⟩,
   ⟨"rfc3779.py:68", Rfc3779.IPAddressChoice, Rfc3779.IPAddressChoice⟩,
   ⟨"rfc3779.py:75", Rfc3779.IPAddressFamily, Rfc3779.IPAddressFamily⟩,
   ⟨"rfc3779.py:91", Rfc3779.ASId, Rfc3779.ASId⟩,
   ⟨"rfc3779.py:92", Rfc3779.ASId, Rfc3779.ASId⟩,
   ⟨"rfc3779.py:100", Rfc3779.ASId, Rfc3779.ASId⟩,
   ⟨"rfc3779.py:101", Rfc3779.ASRange, Rfc3779.ASRange⟩,
   ⟨"rfc3779.py:111", Rfc3779.ASIdOrRange, Rfc3779.ASIdOrRange⟩,
   ⟨"rfc3779.py:120", Rfc3779.ASIdentifierChoice, Rfc3779.ASIdentifierChoice⟩,
   ⟨"rfc3779.py:123", Rfc3779.ASIdentifierChoice, Rfc3779.ASIdentifierChoice⟩,
   ⟨"rfc3779.py:133", Rfc3779.IPAddrBlocks, Rfc3779.IPAddrBlocks⟩,
   ⟨"rfc3779.py:134", Rfc3779.ASIdentifiers, Rfc3779.ASIdentifiers⟩]

/-- Functions rfc3779.py defines. -/
def builders : List (String × (List Py.OidArg → Py.Obj)) :=
  []

def asModule : Py.Module :=
  { id := (Py.mod 49 "rfc3779"), imports := imports, effects := effects, classes := classes, objects := objects, protos := protos, snapshots := snapshots, builders := builders }

end Rfc3779
end Verif
