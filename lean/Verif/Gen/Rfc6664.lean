import Verif.Py.Obj
import Verif.Gen.Rfc5280
import Verif.Gen.Rfc5751
import Verif.Gen.Rfc5480
import Verif.Gen.Rfc4055
import Verif.Gen.Rfc3279

/-! Transcription of /repo/pyasn1_modules/rfc6664.py (generated by tools/gen.py). -/

namespace Verif
namespace Rfc6664

/-- rfc6664.py:26 -/
def MAX : Py.Bound :=
  .inf

/-- rfc6664.py:31 alias of `rfc5280.AlgorithmIdentifier` -/
def AlgorithmIdentifier : Py.Obj :=
  Rfc5280.AlgorithmIdentifier

/-- rfc6664.py:36 alias of `rfc3279.dhpublicnumber` -/
def dhpublicnumber : Py.Obj :=
  Rfc3279.dhpublicnumber

/-- rfc6664.py:38 alias of `rfc3279.Dss_Parms` -/
def Dss_Parms : Py.Obj :=
  Rfc3279.Dss_Parms

/-- rfc6664.py:40 alias of `rfc3279.id_dsa` -/
def id_dsa : Py.Obj :=
  Rfc3279.id_dsa

/-- rfc6664.py:42 alias of `rfc3279.id_ecPublicKey` -/
def id_ecPublicKey : Py.Obj :=
  Rfc3279.id_ecPublicKey

/-- rfc6664.py:44 alias of `rfc3279.rsaEncryption` -/
def rsaEncryption : Py.Obj :=
  Rfc3279.rsaEncryption

/-- rfc6664.py:49 alias of `rfc4055.id_mgf1` -/
def id_mgf1 : Py.Obj :=
  Rfc4055.id_mgf1

/-- rfc6664.py:51 alias of `rfc4055.id_RSAES_OAEP` -/
def id_RSAES_OAEP : Py.Obj :=
  Rfc4055.id_RSAES_OAEP

/-- rfc6664.py:53 alias of `rfc4055.id_RSASSA_PSS` -/
def id_RSASSA_PSS : Py.Obj :=
  Rfc4055.id_RSASSA_PSS

/-- rfc6664.py:58 alias of `rfc5480.ECParameters` -/
def ECParameters : Py.Obj :=
  Rfc5480.ECParameters

/-- rfc6664.py:60 alias of `rfc5480.id_ecDH` -/
def id_ecDH : Py.Obj :=
  Rfc5480.id_ecDH

/-- rfc6664.py:62 alias of `rfc5480.id_ecMQV` -/
def id_ecMQV : Py.Obj :=
  Rfc5480.id_ecMQV

/-- rfc6664.py:67-70 `class RSAKeySize(univ.Integer)` -/
def RSAKeySize : Py.Obj :=
  Py.univ.Integer

/-- rfc6664.py:73-77 `class RSAKeyCapabilities(univ.Sequence)` -/
def RSAKeyCapabilities : Py.Obj :=
  Py.univ.Sequence.setComponentType (Py.NamedTypes [
    Py.NamedType "minKeySize" Rfc6664.RSAKeySize.call,
    Py.OptionalNamedType "maxKeySize" Rfc6664.RSAKeySize.call])

/-- rfc6664.py:80-85 `class RsaSsa_Pss_sig_caps(univ.Sequence)` -/
def RsaSsa_Pss_sig_caps : Py.Obj :=
  Py.univ.Sequence.setComponentType (Py.NamedTypes [
    Py.NamedType "hashAlg" Rfc6664.AlgorithmIdentifier.call,
    Py.OptionalNamedType "maskAlg" Rfc6664.AlgorithmIdentifier.call,
    Py.DefaultedNamedType "trailerField" (Py.univ.Integer.call.callInt 1)])

/-- rfc6664.py:90-91 `class DSAKeySize(univ.Integer)` -/
def DSAKeySize : Py.Obj :=
  Py.univ.Integer.setSubtypeSpec (Py.SingleValueConstraint [(.int 1024), (.int 2048), (.int 3072), (.int 7680), (.int 15360)])

/-- rfc6664.py:94-114 `class DSAKeyCapabilities(univ.Choice)` -/
def DSAKeyCapabilities : Py.Obj :=
  Py.univ.Choice.setComponentType (Py.NamedTypes [
    Py.NamedType "keySizes" ((Py.univ.Sequence.call.setComponentType (Py.NamedTypes [
    Py.NamedType "minKeySize" Rfc6664.DSAKeySize.call,
    Py.OptionalNamedType "maxKeySize" Rfc6664.DSAKeySize.call,
    Py.OptionalNamedType "maxSizeP" (Py.univ.Integer.call.explicitTag (Py.Tag .context false 1)),
    Py.OptionalNamedType "maxSizeQ" (Py.univ.Integer.call.explicitTag (Py.Tag .context false 2)),
    Py.OptionalNamedType "maxSizeG" (Py.univ.Integer.call.explicitTag (Py.Tag .context false 3))])).explicitTag (Py.Tag .context true 0)),
    Py.NamedType "keyParams" (Rfc6664.Dss_Parms.call.explicitTag (Py.Tag .context true 1))])

/-- rfc6664.py:119-121 `class EC_SMimeCaps(univ.SequenceOf)` -/
def EC_SMimeCaps : Py.Obj :=
  (Py.univ.SequenceOf.setComponentTypeOf Rfc6664.ECParameters.call).setSubtypeSpec (Py.ValueSizeConstraint (.fin 1) Rfc6664.MAX)

/-- rfc6664.py:134-145 -/
def _smimeCapabilityMapUpdate : Py.Entries :=
  [(Rfc6664.rsaEncryption.value, Rfc6664.RSAKeyCapabilities.call.ty),
    (Rfc6664.id_RSASSA_PSS.value, Rfc6664.RSAKeyCapabilities.call.ty),
    (Rfc6664.id_RSAES_OAEP.value, Rfc6664.RSAKeyCapabilities.call.ty),
    (Rfc6664.id_dsa.value, Rfc6664.DSAKeyCapabilities.call.ty),
    (Rfc6664.dhpublicnumber.value, Rfc6664.DSAKeyCapabilities.call.ty),
    (Rfc6664.id_ecPublicKey.value, Rfc6664.EC_SMimeCaps.call.ty),
    (Rfc6664.id_ecDH.value, Rfc6664.EC_SMimeCaps.call.ty),
    (Rfc6664.id_ecMQV.value, Rfc6664.EC_SMimeCaps.call.ty),
    (Rfc6664.id_mgf1.value, Rfc6664.AlgorithmIdentifier.call.ty)]

/-- Modules of this package imported by rfc6664.py, in textual order. -/
def imports : List Py.Ident :=
  [(Py.mod 15 "rfc5280"), (Py.mod 20 "rfc5751"), (Py.mod 34 "rfc5480"), (Py.mod 42 "rfc4055"), (Py.mod 33 "rfc3279")]

/-- Dictionary operations executed when rfc6664.py is imported, in program order. -/
def effects : List Py.Effect :=
  [.create (Py.map 115 "rfc6664._smimeCapabilityMapUpdate") Rfc6664._smimeCapabilityMapUpdate /- rfc6664.py:134-145 -/,
   .update (Py.map 14 "rfc5751.smimeCapabilityMap") Rfc6664._smimeCapabilityMapUpdate /- rfc6664.py:147 -/]

/-- ASN.1 types rfc6664.py binds at module level (final version of each name), plus nested classes. -/
def classes : List (String × Py.Obj) :=
  [("rfc6664.AlgorithmIdentifier", Rfc6664.AlgorithmIdentifier),
   ("rfc6664.Dss_Parms", Rfc6664.Dss_Parms),
   ("rfc6664.ECParameters", Rfc6664.ECParameters),
   ("rfc6664.RSAKeySize", Rfc6664.RSAKeySize),
   ("rfc6664.RSAKeyCapabilities", Rfc6664.RSAKeyCapabilities),
   ("rfc6664.RsaSsa_Pss_sig_caps", Rfc6664.RsaSsa_Pss_sig_caps),
   ("rfc6664.DSAKeySize", Rfc6664.DSAKeySize),
   ("rfc6664.DSAKeyCapabilities", Rfc6664.DSAKeyCapabilities),
   ("rfc6664.EC_SMimeCaps", Rfc6664.EC_SMimeCaps)]

/-- pyasn1 instances rfc6664.py binds at module level. -/
def objects : List (String × Py.Obj) :=
  [("rfc6664.dhpublicnumber", Rfc6664.dhpublicnumber),
   ("rfc6664.id_dsa", Rfc6664.id_dsa),
   ("rfc6664.id_ecPublicKey", Rfc6664.id_ecPublicKey),
   ("rfc6664.rsaEncryption", Rfc6664.rsaEncryption),
   ("rfc6664.id_mgf1", Rfc6664.id_mgf1),
   ("rfc6664.id_RSAES_OAEP", Rfc6664.id_RSAES_OAEP),
   ("rfc6664.id_RSASSA_PSS", Rfc6664.id_RSASSA_PSS),
   ("rfc6664.id_ecDH", Rfc6664.id_ecDH),
   ("rfc6664.id_ecMQV", Rfc6664.id_ecMQV)]

/-- pyasn1 instances rfc6664.py fills in by item assignment. -/
def protos : List (String × Py.Proto) :=
  []

/-- Every place of rfc6664.py that instantiates a class of the package: where, the class as it is
at that point, and the class as it is when the import has finished. -/
def snapshots : List Py.Snapshot :=
  [⟨"rfc6664.py:75", Rfc6664.RSAKeySize, Rfc6664.RSAKeySize⟩,
   ⟨"rfc6664.py:76", Rfc6664.RSAKeySize, Rfc6664.RSAKeySize⟩,
   ⟨"rfc6664.py:82", Rfc6664.AlgorithmIdentifier, Rfc6664.AlgorithmIdentifier⟩,
   ⟨"rfc6664.py:83", Rfc6664.AlgorithmIdentifier, Rfc6664.AlgorithmIdentifier⟩,
   ⟨"rfc6664.py:98", Rfc6664.DSAKeySize, Rfc6664.DSAKeySize⟩,
   ⟨"rfc6664.py:100", Rfc6664.DSAKeySize, Rfc6664.DSAKeySize⟩,
   ⟨"rfc6664.py:112", Rfc6664.Dss_Parms, Rfc6664.Dss_Parms⟩,
   ⟨"rfc6664.py:120", Rfc6664.ECParameters, Rfc6664.ECParameters⟩,
   ⟨"rfc6664.py:135", Rfc6664.RSAKeyCapabilities, Rfc6664.RSAKeyCapabilities⟩,
   ⟨"rfc6664.py:136", Rfc6664.RSAKeyCapabilities, Rfc6664.RSAKeyCapabilities⟩,
   ⟨"rfc6664.py:138", Rfc6664.RSAKeyCapabilities, Rfc6664.RSAKeyCapabilities⟩,
   ⟨"rfc6664.py:139", Rfc6664.DSAKeyCapabilities, Rfc6664.DSAKeyCapabilities⟩,
   ⟨"rfc6664.py:140", Rfc6664.DSAKeyCapabilities, Rfc6664.DSAKeyCapabilities⟩,
   ⟨"rfc6664.py:141", Rfc6664.EC_SMimeCaps, Rfc6664.EC_SMimeCaps⟩,
   ⟨"rfc6664.py:142", Rfc6664.EC_SMimeCaps, Rfc6664.EC_SMimeCaps⟩,
   ⟨"rfc6664.py:143", Rfc6664.EC_SMimeCaps, Rfc6664.EC_SMimeCaps⟩,
   ⟨"rfc6664.py:144", Rfc6664.AlgorithmIdentifier, Rfc6664.AlgorithmIdentifier⟩]

/-- Functions rfc6664.py defines. -/
def builders : List (String × (List Py.OidArg → Py.Obj)) :=
  []

def asModule : Py.Module :=
  { id := (Py.mod 97 "rfc6664"), imports := imports, effects := effects, classes := classes, objects := objects, protos := protos, snapshots := snapshots, builders := builders }

end Rfc6664
end Verif
