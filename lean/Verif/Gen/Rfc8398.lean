import Verif.Py.Obj
import Verif.Gen.Rfc5280

/-! Transcription of /repo/pyasn1_modules/rfc8398.py (generated by tools/gen.py). -/

namespace Verif
namespace Rfc8398

/-- rfc8398.py:22 -/
def MAX : Py.Bound :=
  .inf

/-- rfc8398.py:27 alias of `rfc5280.id_pkix` -/
def id_pkix : Py.Obj :=
  Rfc5280.id_pkix

/-- rfc8398.py:29 -/
def id_on : Py.Obj :=
  (Rfc8398.id_pkix.addArcs [8])

/-- rfc8398.py:31 -/
def id_on_SmtpUTF8Mailbox : Py.Obj :=
  (Rfc8398.id_on.addArcs [9])

/-- rfc8398.py:34-35 `class SmtpUTF8Mailbox(char.UTF8String)` -/
def SmtpUTF8Mailbox__0 : Py.Obj :=
  Py.char.UTF8String

/-- rfc8398.py:37 `SmtpUTF8Mailbox.subtypeSpec = ...` -/
def SmtpUTF8Mailbox : Py.Obj :=
  Rfc8398.SmtpUTF8Mailbox__0.setSubtypeSpec (Py.ValueSizeConstraint (.fin 1) Rfc8398.MAX)

/-- rfc8398.py:40 -/
def on_SmtpUTF8Mailbox__0 : Py.Proto :=
  { obj := Rfc5280.AnotherName.call }

/-- rfc8398.py:41 `on_SmtpUTF8Mailbox['type-id'] = ...` -/
def on_SmtpUTF8Mailbox__1 : Py.Proto :=
  Rfc8398.on_SmtpUTF8Mailbox__0.set "type-id" (.obj Rfc8398.id_on_SmtpUTF8Mailbox)

/-- rfc8398.py:42 `on_SmtpUTF8Mailbox['value'] = ...` -/
def on_SmtpUTF8Mailbox : Py.Proto :=
  Rfc8398.on_SmtpUTF8Mailbox__1.set "value" (.obj Rfc8398.SmtpUTF8Mailbox.call)

/-- rfc8398.py:48-50 -/
def _anotherNameMapUpdate : Py.Entries :=
  [(Rfc8398.id_on_SmtpUTF8Mailbox.value, Rfc8398.SmtpUTF8Mailbox.call.ty)]

/-- Modules of this package imported by rfc8398.py, in textual order. -/
def imports : List Py.Ident :=
  [(Py.mod 15 "rfc5280")]

/-- Dictionary operations executed when rfc8398.py is imported, in program order. -/
def effects : List Py.Effect :=
  [.create (Py.map 139 "rfc8398._anotherNameMapUpdate") Rfc8398._anotherNameMapUpdate /- rfc8398.py:48-50 -/,
   .update (Py.map 6 "rfc5280.anotherNameMap") Rfc8398._anotherNameMapUpdate /- rfc8398.py:52 -/]

/-- ASN.1 types rfc8398.py binds at module level (final version of each name), plus nested classes. -/
def classes : List (String × Py.Obj) :=
  [("rfc8398.SmtpUTF8Mailbox", Rfc8398.SmtpUTF8Mailbox)]

/-- pyasn1 instances rfc8398.py binds at module level. -/
def objects : List (String × Py.Obj) :=
  [("rfc8398.id_pkix", Rfc8398.id_pkix),
   ("rfc8398.id_on", Rfc8398.id_on),
   ("rfc8398.id_on_SmtpUTF8Mailbox", Rfc8398.id_on_SmtpUTF8Mailbox)]

/-- pyasn1 instances rfc8398.py fills in by item assignment. -/
def protos : List (String × Py.Proto) :=
  [("rfc8398.on_SmtpUTF8Mailbox", Rfc8398.on_SmtpUTF8Mailbox)]

/-- Every place of rfc8398.py that instantiates a class of the package: where, the class as it is
at that point, and the class as it is when the import has finished. -/
def snapshots : List Py.Snapshot :=
  [⟨"rfc8398.py:40", Rfc5280.AnotherName, Rfc5280.AnotherName⟩,
   ⟨"rfc8398.py:42", Rfc8398.SmtpUTF8Mailbox, Rfc8398.SmtpUTF8Mailbox⟩,
   ⟨"rfc8398.py:49", Rfc8398.SmtpUTF8Mailbox, Rfc8398.SmtpUTF8Mailbox⟩]

/-- Functions rfc8398.py defines. -/
def builders : List (String × (List Py.OidArg → Py.Obj)) :=
  []

def asModule : Py.Module :=
  { id := (Py.mod 116 "rfc8398"), imports := imports, effects := effects, classes := classes, objects := objects, protos := protos, snapshots := snapshots, builders := builders }

end Rfc8398
end Verif
