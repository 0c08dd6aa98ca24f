import Verif.Py.Obj
import Verif.Gen.Rfc5280

/-! Transcription of /repo/pyasn1_modules/rfc7773.py (generated by tools/gen.py). -/

namespace Verif
namespace Rfc7773

/-- rfc7773.py:22 -/
def MAX : Py.Bound :=
  .inf

/-- rfc7773.py:27 -/
def e_legnamnden : Py.Obj :=
  (Py.univ.ObjectIdentifier.call.callArcs [1, 2, 752, 201])

/-- rfc7773.py:29 -/
def id_eleg_ce : Py.Obj :=
  (Rfc7773.e_legnamnden.addArcs [5])

/-- rfc7773.py:31 -/
def id_ce_authContext : Py.Obj :=
  (Rfc7773.id_eleg_ce.addArcs [1])

/-- rfc7773.py:34-38 `class AuthenticationContext(univ.Sequence)` -/
def AuthenticationContext : Py.Obj :=
  Py.univ.Sequence.setComponentType (Py.NamedTypes [
    Py.NamedType "contextType" Py.char.UTF8String.call,
    Py.OptionalNamedType "contextInfo" Py.char.UTF8String.call])

/-- rfc7773.py:40-42 `class AuthenticationContexts(univ.SequenceOf)` -/
def AuthenticationContexts : Py.Obj :=
  (Py.univ.SequenceOf.setComponentTypeOf Rfc7773.AuthenticationContext.call).setSubtypeSpec (Py.ValueSizeConstraint (.fin 1) Rfc7773.MAX)

/-- rfc7773.py:48-50 -/
def _certificateExtensionsMapUpdate : Py.Entries :=
  [(Rfc7773.id_ce_authContext.value, Rfc7773.AuthenticationContexts.call.ty)]

/-- Modules of this package imported by rfc7773.py, in textual order. -/
def imports : List Py.Ident :=
  [(Py.mod 15 "rfc5280")]

/-- Dictionary operations executed when rfc7773.py is imported, in program order. -/
def effects : List Py.Effect :=
  [.create (Py.map 130 "rfc7773._certificateExtensionsMapUpdate") Rfc7773._certificateExtensionsMapUpdate /- rfc7773.py:48-50 -/,
   .update (Py.map 48 "rfc5280.certificateExtensionsMap") Rfc7773._certificateExtensionsMapUpdate /- rfc7773.py:52 -/]

/-- ASN.1 types rfc7773.py binds at module level (final version of each name), plus nested classes. -/
def classes : List (String × Py.Obj) :=
  [("rfc7773.AuthenticationContext", Rfc7773.AuthenticationContext),
   ("rfc7773.AuthenticationContexts", Rfc7773.AuthenticationContexts)]

/-- pyasn1 instances rfc7773.py binds at module level. -/
def objects : List (String × Py.Obj) :=
  [("rfc7773.e_legnamnden", Rfc7773.e_legnamnden),
   ("rfc7773.id_eleg_ce", Rfc7773.id_eleg_ce),
   ("rfc7773.id_ce_authContext", Rfc7773.id_ce_authContext)]

/-- pyasn1 instances rfc7773.py fills in by item assignment. -/
def protos : List (String × Py.Proto) :=
  []

/-- Every place of rfc7773.py that instantiates a class of the package: where, the class as it is
at that point, and the class as it is when the import has finished. -/
def snapshots : List Py.Snapshot :=
  [⟨"rfc7773.py:41", Rfc7773.AuthenticationContext, Rfc7773.AuthenticationContext⟩,
   ⟨"rfc7773.py:49", Rfc7773.AuthenticationContexts, Rfc7773.AuthenticationContexts⟩]

/-- Functions rfc7773.py defines. -/
def builders : List (String × (List Py.OidArg → Py.Obj)) :=
  []

def asModule : Py.Module :=
  { id := (Py.mod 106 "rfc7773"), imports := imports, effects := effects, classes := classes, objects := objects, protos := protos, snapshots := snapshots, builders := builders }

end Rfc7773
end Verif
