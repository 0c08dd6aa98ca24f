import Verif.Py.Obj
import Verif.Gen.Rfc5035
import Verif.Gen.Rfc5652

/-! Transcription of /repo/pyasn1_modules/rfc5752.py (generated by tools/gen.py). -/

namespace Verif
namespace Rfc5752

/-- rfc5752.py:23-27 `class SignAttrsHash(univ.Sequence)` -/
def SignAttrsHash : Py.Obj :=
  Py.univ.Sequence.setComponentType (Py.NamedTypes [
    Py.NamedType "algID" Rfc5652.DigestAlgorithmIdentifier.call,
    Py.NamedType "hash" Py.univ.OctetString.call])

/-- rfc5752.py:30-36 `class MultipleSignatures(univ.Sequence)` -/
def MultipleSignatures : Py.Obj :=
  Py.univ.Sequence.setComponentType (Py.NamedTypes [
    Py.NamedType "bodyHashAlg" Rfc5652.DigestAlgorithmIdentifier.call,
    Py.NamedType "signAlg" Rfc5652.SignatureAlgorithmIdentifier.call,
    Py.NamedType "signAttrsHash" Rfc5752.SignAttrsHash.call,
    Py.OptionalNamedType "cert" Rfc5035.ESSCertIDv2.call])

/-- rfc5752.py:39 -/
def id_aa_multipleSignatures : Py.Obj :=
  (Py.univ.ObjectIdentifier.call.callArcs [1, 2, 840, 113549, 1, 9, 16, 2, 51])

/-- rfc5752.py:45-47 -/
def _cmsAttributesMapUpdate : Py.Entries :=
  [(Rfc5752.id_aa_multipleSignatures.value, Rfc5752.MultipleSignatures.call.ty)]

/-- Modules of this package imported by rfc5752.py, in textual order. -/
def imports : List Py.Ident :=
  [(Py.mod 65 "rfc5035"), (Py.mod 16 "rfc5652")]

/-- Dictionary operations executed when rfc5752.py is imported, in program order. -/
def effects : List Py.Effect :=
  [.create (Py.map 89 "rfc5752._cmsAttributesMapUpdate") Rfc5752._cmsAttributesMapUpdate /- rfc5752.py:45-47 -/,
   .update (Py.map 8 "rfc5652.cmsAttributesMap") Rfc5752._cmsAttributesMapUpdate /- rfc5752.py:49 -/]

/-- ASN.1 types rfc5752.py binds at module level (final version of each name), plus nested classes. -/
def classes : List (String × Py.Obj) :=
  [("rfc5752.SignAttrsHash", Rfc5752.SignAttrsHash),
   ("rfc5752.MultipleSignatures", Rfc5752.MultipleSignatures)]

/-- pyasn1 instances rfc5752.py binds at module level. -/
def objects : List (String × Py.Obj) :=
  [("rfc5752.id_aa_multipleSignatures", Rfc5752.id_aa_multipleSignatures)]

/-- pyasn1 instances rfc5752.py fills in by item assignment. -/
def protos : List (String × Py.Proto) :=
  []

/-- Every place of rfc5752.py that instantiates a class of the package: where, the class as it is
at that point, and the class as it is when the import has finished. -/
def snapshots : List Py.Snapshot :=
  [⟨"rfc5752.py:25", Rfc5652.DigestAlgorithmIdentifier, Rfc5652.DigestAlgorithmIdentifier⟩,
   ⟨"rfc5752.py:32", Rfc5652.DigestAlgorithmIdentifier, Rfc5652.DigestAlgorithmIdentifier⟩,
   ⟨"rfc5752.py:33", Rfc5652.SignatureAlgorithmIdentifier, Rfc5652.SignatureAlgorithmIdentifier⟩,
   ⟨"rfc5752.py:34", Rfc5752.SignAttrsHash, Rfc5752.SignAttrsHash⟩,
   ⟨"rfc5752.py:35", Rfc5035.ESSCertIDv2, Rfc5035.ESSCertIDv2⟩,
   ⟨"rfc5752.py:46", Rfc5752.MultipleSignatures, Rfc5752.MultipleSignatures⟩]

/-- Functions rfc5752.py defines. -/
def builders : List (String × (List Py.OidArg → Py.Obj)) :=
  []

def asModule : Py.Module :=
  { id := (Py.mod 76 "rfc5752"), imports := imports, effects := effects, classes := classes, objects := objects, protos := protos, snapshots := snapshots, builders := builders }

end Rfc5752
end Verif
