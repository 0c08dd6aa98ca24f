import Verif.Py.Obj
import Verif.Gen.Rfc5280

/-! Transcription of /repo/pyasn1_modules/rfc6120.py (generated by tools/gen.py). -/

namespace Verif
namespace Rfc6120

/-- rfc6120.py:20 -/
def MAX : Py.Bound :=
  .inf

/-- rfc6120.py:25 alias of `rfc5280.id_pkix` -/
def id_pkix : Py.Obj :=
  Rfc5280.id_pkix

/-- rfc6120.py:27 -/
def id_on : Py.Obj :=
  (Rfc6120.id_pkix.addArcs [8])

/-- rfc6120.py:29 -/
def id_on_xmppAddr : Py.Obj :=
  (Rfc6120.id_on.addArcs [5])

/-- rfc6120.py:32-33 `class XmppAddr(char.UTF8String)` -/
def XmppAddr : Py.Obj :=
  Py.char.UTF8String

/-- rfc6120.py:39-41 -/
def _anotherNameMapUpdate : Py.Entries :=
  [(Rfc6120.id_on_xmppAddr.value, Rfc6120.XmppAddr.call.ty)]

/-- Modules of this package imported by rfc6120.py, in textual order. -/
def imports : List Py.Ident :=
  [(Py.mod 15 "rfc5280")]

/-- Dictionary operations executed when rfc6120.py is imported, in program order. -/
def effects : List Py.Effect :=
  [.create (Py.map 107 "rfc6120._anotherNameMapUpdate") Rfc6120._anotherNameMapUpdate /- rfc6120.py:39-41 -/,
   .update (Py.map 6 "rfc5280.anotherNameMap") Rfc6120._anotherNameMapUpdate /- rfc6120.py:43 -/]

/-- ASN.1 types rfc6120.py binds at module level (final version of each name), plus nested classes. -/
def classes : List (String × Py.Obj) :=
  [("rfc6120.XmppAddr", Rfc6120.XmppAddr)]

/-- pyasn1 instances rfc6120.py binds at module level. -/
def objects : List (String × Py.Obj) :=
  [("rfc6120.id_pkix", Rfc6120.id_pkix),
   ("rfc6120.id_on", Rfc6120.id_on),
   ("rfc6120.id_on_xmppAddr", Rfc6120.id_on_xmppAddr)]

/-- pyasn1 instances rfc6120.py fills in by item assignment. -/
def protos : List (String × Py.Proto) :=
  []

/-- Every place of rfc6120.py that instantiates a class of the package: where, the class as it is
at that point, and the class as it is when the import has finished. -/
def snapshots : List Py.Snapshot :=
  [⟨"rfc6120.py:40", Rfc6120.XmppAddr, Rfc6120.XmppAddr⟩]

/-- Functions rfc6120.py defines. -/
def builders : List (String × (List Py.OidArg → Py.Obj)) :=
  []

def asModule : Py.Module :=
  { id := (Py.mod 89 "rfc6120"), imports := imports, effects := effects, classes := classes, objects := objects, protos := protos, snapshots := snapshots, builders := builders }

end Rfc6120
end Verif
