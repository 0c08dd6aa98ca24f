import Verif.Py.Obj

/-! Transcription of /repo/pyasn1_modules/rfc8103.py (generated by tools/gen.py). -/

namespace Verif
namespace Rfc8103

/-- rfc8103.py:19-27 `def _OID(*components)` -/
def _OID (components : List Py.OidArg) : Py.Obj :=
  match Py.oidLoop [] components with
  | some output => Py.univ.ObjectIdentifier.call.callArcs output
  | none => .fail "OID without value"

/-- rfc8103.py:30-31 `class AEADChaCha20Poly1305Nonce(univ.OctetString)` -/
def AEADChaCha20Poly1305Nonce__0 : Py.Obj :=
  Py.univ.OctetString

/-- rfc8103.py:34 `AEADChaCha20Poly1305Nonce.subtypeSpec = ...` -/
def AEADChaCha20Poly1305Nonce : Py.Obj :=
  Rfc8103.AEADChaCha20Poly1305Nonce__0.setSubtypeSpec (Py.ValueSizeConstraint (.fin 12) (.fin 12))

/-- rfc8103.py:36 -/
def id_alg_AEADChaCha20Poly1305 : Py.Obj :=
  (Rfc8103._OID [.num 1, .num 2, .num 840, .num 113549, .num 1, .num 9, .num 16, .num 3, .num 18])

/-- Modules of this package imported by rfc8103.py, in textual order. -/
def imports : List Py.Ident :=
  []

/-- Dictionary operations executed when rfc8103.py is imported, in program order. -/
def effects : List Py.Effect :=
  []

/-- ASN.1 types rfc8103.py binds at module level (final version of each name), plus nested classes. -/
def classes : List (String × Py.Obj) :=
  [("rfc8103.AEADChaCha20Poly1305Nonce", Rfc8103.AEADChaCha20Poly1305Nonce)]

/-- pyasn1 instances rfc8103.py binds at module level. -/
def objects : List (String × Py.Obj) :=
  [("rfc8103.id_alg_AEADChaCha20Poly1305", Rfc8103.id_alg_AEADChaCha20Poly1305)]

/-- pyasn1 instances rfc8103.py fills in by item assignment. -/
def protos : List (String × Py.Proto) :=
  []

/-- Every place of rfc8103.py that instantiates a class of the package: where, the class as it is
at that point, and the class as it is when the import has finished. -/
def snapshots : List Py.Snapshot :=
  []

/-- Functions rfc8103.py defines. -/
def builders : List (String × (List Py.OidArg → Py.Obj)) :=
  [("rfc8103._OID", Rfc8103._OID)]

def asModule : Py.Module :=
  { id := (Py.mod 111 "rfc8103"), imports := imports, effects := effects, classes := classes, objects := objects, protos := protos, snapshots := snapshots, builders := builders }

end Rfc8103
end Verif
