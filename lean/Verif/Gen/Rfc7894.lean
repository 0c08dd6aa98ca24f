import Verif.Py.Obj
import Verif.Gen.Rfc5652
import Verif.Gen.Rfc6402
import Verif.Gen.Rfc7191

/-! Transcription of /repo/pyasn1_modules/rfc7894.py (generated by tools/gen.py). -/

namespace Verif
namespace Rfc7894

/-- rfc7894.py:28 alias of `rfc7191.SingleAttribute` -/
def Attribute : Py.Obj :=
  Rfc7191.SingleAttribute

/-- rfc7894.py:33-34 `class DirectoryString(univ.Choice)` -/
def DirectoryString__0 : Py.Obj :=
  Py.univ.Choice

/-- rfc7894.py:36-47 `DirectoryString.componentType = ...` -/
def DirectoryString : Py.Obj :=
  Rfc7894.DirectoryString__0.setComponentType (Py.NamedTypes [
    Py.NamedType "teletexString" (Py.char.TeletexString.call.addSubtypeSpec (Py.ValueSizeConstraint (.fin 1) (.fin 255))),
    Py.NamedType "printableString" (Py.char.PrintableString.call.addSubtypeSpec (Py.ValueSizeConstraint (.fin 1) (.fin 255))),
    Py.NamedType "universalString" (Py.char.UniversalString.call.addSubtypeSpec (Py.ValueSizeConstraint (.fin 1) (.fin 255))),
    Py.NamedType "utf8String" (Py.char.UTF8String.call.addSubtypeSpec (Py.ValueSizeConstraint (.fin 1) (.fin 255))),
    Py.NamedType "bmpString" (Py.char.BMPString.call.addSubtypeSpec (Py.ValueSizeConstraint (.fin 1) (.fin 255)))])

/-- rfc7894.py:52 -/
def id_aa_otpChallenge : Py.Obj :=
  (Py.univ.ObjectIdentifier.call.callArcs [1, 2, 840, 113549, 1, 9, 16, 2, 56])

/-- rfc7894.py:54 -/
def ub_aa_otpChallenge : Py.Obj :=
  (Py.univ.Integer.call.callInt 255)

/-- rfc7894.py:56 -/
def otpChallenge__0 : Py.Proto :=
  { obj := Rfc7894.Attribute.call }

/-- rfc7894.py:57 `otpChallenge['attrType'] = ...` -/
def otpChallenge__1 : Py.Proto :=
  Rfc7894.otpChallenge__0.set "attrType" (.obj Rfc7894.id_aa_otpChallenge)

/-- rfc7894.py:58 `otpChallenge['attrValues'][0] = ...` -/
def otpChallenge : Py.Proto :=
  Rfc7894.otpChallenge__1.set "attrValues" (.elem0 Rfc7894.DirectoryString.call)

/-- rfc7894.py:63 -/
def id_aa_revocationChallenge : Py.Obj :=
  (Py.univ.ObjectIdentifier.call.callArcs [1, 2, 840, 113549, 1, 9, 16, 2, 57])

/-- rfc7894.py:65 -/
def ub_aa_revocationChallenge : Py.Obj :=
  (Py.univ.Integer.call.callInt 255)

/-- rfc7894.py:67 -/
def revocationChallenge__0 : Py.Proto :=
  { obj := Rfc7894.Attribute.call }

/-- rfc7894.py:68 `revocationChallenge['attrType'] = ...` -/
def revocationChallenge__1 : Py.Proto :=
  Rfc7894.revocationChallenge__0.set "attrType" (.obj Rfc7894.id_aa_revocationChallenge)

/-- rfc7894.py:69 `revocationChallenge['attrValues'][0] = ...` -/
def revocationChallenge : Py.Proto :=
  Rfc7894.revocationChallenge__1.set "attrValues" (.elem0 Rfc7894.DirectoryString.call)

/-- rfc7894.py:74 -/
def id_aa_estIdentityLinking : Py.Obj :=
  (Py.univ.ObjectIdentifier.call.callArcs [1, 2, 840, 113549, 1, 9, 16, 2, 58])

/-- rfc7894.py:76 -/
def ub_aa_est_identity_linking : Py.Obj :=
  (Py.univ.Integer.call.callInt 255)

/-- rfc7894.py:78 -/
def estIdentityLinking__0 : Py.Proto :=
  { obj := Rfc7894.Attribute.call }

/-- rfc7894.py:79 `estIdentityLinking['attrType'] = ...` -/
def estIdentityLinking__1 : Py.Proto :=
  Rfc7894.estIdentityLinking__0.set "attrType" (.obj Rfc7894.id_aa_estIdentityLinking)

/-- rfc7894.py:80 `estIdentityLinking['attrValues'][0] = ...` -/
def estIdentityLinking : Py.Proto :=
  Rfc7894.estIdentityLinking__1.set "attrValues" (.elem0 Rfc7894.DirectoryString.call)

/-- rfc7894.py:86-90 -/
def _cmcControlAttributesMapUpdate : Py.Entries :=
  [(Rfc7894.id_aa_otpChallenge.value, Rfc7894.DirectoryString.call.ty),
    (Rfc7894.id_aa_revocationChallenge.value, Rfc7894.DirectoryString.call.ty),
    (Rfc7894.id_aa_estIdentityLinking.value, Rfc7894.DirectoryString.call.ty)]

/-- Modules of this package imported by rfc7894.py, in textual order. -/
def imports : List Py.Ident :=
  [(Py.mod 16 "rfc5652"), (Py.mod 93 "rfc6402"), (Py.mod 100 "rfc7191")]

/-- Dictionary operations executed when rfc7894.py is imported, in program order. -/
def effects : List Py.Effect :=
  [.create (Py.map 131 "rfc7894._cmcControlAttributesMapUpdate") Rfc7894._cmcControlAttributesMapUpdate /- rfc7894.py:86-90 -/,
   .update (Py.map 8 "rfc5652.cmsAttributesMap") Rfc7894._cmcControlAttributesMapUpdate /- rfc7894.py:92 -/]

/-- ASN.1 types rfc7894.py binds at module level (final version of each name), plus nested classes. -/
def classes : List (String × Py.Obj) :=
  [("rfc7894.Attribute", Rfc7894.Attribute),
   ("rfc7894.DirectoryString", Rfc7894.DirectoryString)]

/-- pyasn1 instances rfc7894.py binds at module level. -/
def objects : List (String × Py.Obj) :=
  [("rfc7894.id_aa_otpChallenge", Rfc7894.id_aa_otpChallenge),
   ("rfc7894.ub_aa_otpChallenge", Rfc7894.ub_aa_otpChallenge),
   ("rfc7894.id_aa_revocationChallenge", Rfc7894.id_aa_revocationChallenge),
   ("rfc7894.ub_aa_revocationChallenge", Rfc7894.ub_aa_revocationChallenge),
   ("rfc7894.id_aa_estIdentityLinking", Rfc7894.id_aa_estIdentityLinking),
   ("rfc7894.ub_aa_est_identity_linking", Rfc7894.ub_aa_est_identity_linking)]

/-- pyasn1 instances rfc7894.py fills in by item assignment. -/
def protos : List (String × Py.Proto) :=
  [("rfc7894.otpChallenge", Rfc7894.otpChallenge),
   ("rfc7894.revocationChallenge", Rfc7894.revocationChallenge),
   ("rfc7894.estIdentityLinking", Rfc7894.estIdentityLinking)]

/-- Every place of rfc7894.py that instantiates a class of the package: where, the class as it is
at that point, and the class as it is when the import has finished. -/
def snapshots : List Py.Snapshot :=
  [⟨"rfc7894.py:56", Rfc7894.Attribute, Rfc7894.Attribute⟩,
   ⟨"rfc7894.py:58", Rfc7894.DirectoryString, Rfc7894.DirectoryString⟩,
   ⟨"rfc7894.py:67", Rfc7894.Attribute, Rfc7894.Attribute⟩,
   ⟨"rfc7894.py:69", Rfc7894.DirectoryString, Rfc7894.DirectoryString⟩,
   ⟨"rfc7894.py:78", Rfc7894.Attribute, Rfc7894.Attribute⟩,
   ⟨"rfc7894.py:80", Rfc7894.DirectoryString, Rfc7894.DirectoryString⟩,
   ⟨"rfc7894.py:87", Rfc7894.DirectoryString, Rfc7894.DirectoryString⟩,
   ⟨"rfc7894.py:88", Rfc7894.DirectoryString, Rfc7894.DirectoryString⟩,
   ⟨"rfc7894.py:89", Rfc7894.DirectoryString, Rfc7894.DirectoryString⟩]

/-- Functions rfc7894.py defines. -/
def builders : List (String × (List Py.OidArg → Py.Obj)) :=
  []

def asModule : Py.Module :=
  { id := (Py.mod 107 "rfc7894"), imports := imports, effects := effects, classes := classes, objects := objects, protos := protos, snapshots := snapshots, builders := builders }

end Rfc7894
end Verif
