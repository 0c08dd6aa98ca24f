import Verif.Py.Obj
import Verif.Gen.Rfc5280

/-! Transcription of /repo/pyasn1_modules/rfc5084.py (generated by tools/gen.py). -/

namespace Verif
namespace Rfc5084

/-- rfc5084.py:22-30 `def _OID(*components)` -/
def _OID (components : List Py.OidArg) : Py.Obj :=
  match Py.oidLoop [] components with
  | some output => Py.univ.ObjectIdentifier.call.callArcs output
  | none => .fail "OID without value"

/-- rfc5084.py:33-34 `class AES_CCM_ICVlen(univ.Integer)` -/
def AES_CCM_ICVlen__0 : Py.Obj :=
  Py.univ.Integer

/-- rfc5084.py:37-38 `class AES_GCM_ICVlen(univ.Integer)` -/
def AES_GCM_ICVlen__0 : Py.Obj :=
  Py.univ.Integer

/-- rfc5084.py:41 `AES_CCM_ICVlen.subtypeSpec = ...` -/
def AES_CCM_ICVlen : Py.Obj :=
  Rfc5084.AES_CCM_ICVlen__0.setSubtypeSpec (Py.SingleValueConstraint [(.int 4), (.int 6), (.int 8), (.int 10), (.int 12), (.int 14), (.int 16)])

/-- rfc5084.py:43 `AES_GCM_ICVlen.subtypeSpec = ...` -/
def AES_GCM_ICVlen : Py.Obj :=
  Rfc5084.AES_GCM_ICVlen__0.setSubtypeSpec (Py.ValueRangeConstraint (.fin 12) (.fin 16))

/-- rfc5084.py:46-47 `class CCMParameters(univ.Sequence)` -/
def CCMParameters__0 : Py.Obj :=
  Py.univ.Sequence

/-- rfc5084.py:50-55 `CCMParameters.componentType = ...` -/
def CCMParameters : Py.Obj :=
  Rfc5084.CCMParameters__0.setComponentType (Py.NamedTypes [
    Py.NamedType "aes-nonce" (Py.univ.OctetString.call.addSubtypeSpec (Py.ValueSizeConstraint (.fin 7) (.fin 13))),
    Py.DefaultedNamedType "aes-ICVlen" (Rfc5084.AES_CCM_ICVlen.call.callInt 12)])

/-- rfc5084.py:58-59 `class GCMParameters(univ.Sequence)` -/
def GCMParameters__0 : Py.Obj :=
  Py.univ.Sequence

/-- rfc5084.py:62-68 `GCMParameters.componentType = ...` -/
def GCMParameters : Py.Obj :=
  Rfc5084.GCMParameters__0.setComponentType (Py.NamedTypes [
    Py.NamedType "aes-nonce" Py.univ.OctetString.call,
    Py.DefaultedNamedType "aes-ICVlen" (Rfc5084.AES_GCM_ICVlen.call.callInt 12)])

/-- rfc5084.py:70 -/
def aes : Py.Obj :=
  (Rfc5084._OID [.num 2, .num 16, .num 840, .num 1, .num 101, .num 3, .num 4, .num 1])

/-- rfc5084.py:72 -/
def id_aes128_CCM : Py.Obj :=
  (Rfc5084._OID [.oid Rfc5084.aes, .num 7])

/-- rfc5084.py:74 -/
def id_aes128_GCM : Py.Obj :=
  (Rfc5084._OID [.oid Rfc5084.aes, .num 6])

/-- rfc5084.py:76 -/
def id_aes192_CCM : Py.Obj :=
  (Rfc5084._OID [.oid Rfc5084.aes, .num 27])

/-- rfc5084.py:78 -/
def id_aes192_GCM : Py.Obj :=
  (Rfc5084._OID [.oid Rfc5084.aes, .num 26])

/-- rfc5084.py:80 -/
def id_aes256_CCM : Py.Obj :=
  (Rfc5084._OID [.oid Rfc5084.aes, .num 47])

/-- rfc5084.py:82 -/
def id_aes256_GCM : Py.Obj :=
  (Rfc5084._OID [.oid Rfc5084.aes, .num 46])

/-- rfc5084.py:88-95 -/
def _algorithmIdentifierMapUpdate : Py.Entries :=
  [(Rfc5084.id_aes128_CCM.value, Rfc5084.CCMParameters.call.ty),
    (Rfc5084.id_aes128_GCM.value, Rfc5084.GCMParameters.call.ty),
    (Rfc5084.id_aes192_CCM.value, Rfc5084.CCMParameters.call.ty),
    (Rfc5084.id_aes192_GCM.value, Rfc5084.GCMParameters.call.ty),
    (Rfc5084.id_aes256_CCM.value, Rfc5084.CCMParameters.call.ty),
    (Rfc5084.id_aes256_GCM.value, Rfc5084.GCMParameters.call.ty)]

/-- Modules of this package imported by rfc5084.py, in textual order. -/
def imports : List Py.Ident :=
  [(Py.mod 15 "rfc5280")]

/-- Dictionary operations executed when rfc5084.py is imported, in program order. -/
def effects : List Py.Effect :=
  [.create (Py.map 74 "rfc5084._algorithmIdentifierMapUpdate") Rfc5084._algorithmIdentifierMapUpdate /- rfc5084.py:88-95 -/,
   .update (Py.map 3 "rfc5280.algorithmIdentifierMap") Rfc5084._algorithmIdentifierMapUpdate /- rfc5084.py:97 -/]

/-- ASN.1 types rfc5084.py binds at module level (final version of each name), plus nested classes. -/
def classes : List (String × Py.Obj) :=
  [("rfc5084.AES_CCM_ICVlen", Rfc5084.AES_CCM_ICVlen),
   ("rfc5084.AES_GCM_ICVlen", Rfc5084.AES_GCM_ICVlen),
   ("rfc5084.CCMParameters", Rfc5084.CCMParameters),
   ("rfc5084.GCMParameters", Rfc5084.GCMParameters)]

/-- pyasn1 instances rfc5084.py binds at module level. -/
def objects : List (String × Py.Obj) :=
  [("rfc5084.aes", Rfc5084.aes),
   ("rfc5084.id_aes128_CCM", Rfc5084.id_aes128_CCM),
   ("rfc5084.id_aes128_GCM", Rfc5084.id_aes128_GCM),
   ("rfc5084.id_aes192_CCM", Rfc5084.id_aes192_CCM),
   ("rfc5084.id_aes192_GCM", Rfc5084.id_aes192_GCM),
   ("rfc5084.id_aes256_CCM", Rfc5084.id_aes256_CCM),
   ("rfc5084.id_aes256_GCM", Rfc5084.id_aes256_GCM)]

/-- pyasn1 instances rfc5084.py fills in by item assignment. -/
def protos : List (String × Py.Proto) :=
  []

/-- Every place of rfc5084.py that instantiates a class of the package: where, the class as it is
at that point, and the class as it is when the import has finished. -/
def snapshots : List Py.Snapshot :=
  [⟨"rfc5084.py:54", Rfc5084.AES_CCM_ICVlen, Rfc5084.AES_CCM_ICVlen⟩,
   ⟨"rfc5084.py:67", Rfc5084.AES_GCM_ICVlen, Rfc5084.AES_GCM_ICVlen⟩,
   ⟨"rfc5084.py:89", Rfc5084.CCMParameters, Rfc5084.CCMParameters⟩,
   ⟨"rfc5084.py:90", Rfc5084.GCMParameters, Rfc5084.GCMParameters⟩,
   ⟨"rfc5084.py:91", Rfc5084.CCMParameters, Rfc5084.CCMParameters⟩,
   ⟨"rfc5084.py:92", Rfc5084.GCMParameters, Rfc5084.GCMParameters⟩,
   ⟨"rfc5084.py:93", Rfc5084.CCMParameters, Rfc5084.CCMParameters⟩,
   ⟨"rfc5084.py:94", Rfc5084.GCMParameters, Rfc5084.GCMParameters⟩]

/-- Functions rfc5084.py defines. -/
def builders : List (String × (List Py.OidArg → Py.Obj)) :=
  [("rfc5084._OID", Rfc5084._OID)]

def asModule : Py.Module :=
  { id := (Py.mod 67 "rfc5084"), imports := imports, effects := effects, classes := classes, objects := objects, protos := protos, snapshots := snapshots, builders := builders }

end Rfc5084
end Verif
