import Verif.Py.Obj
import Verif.Gen.Rfc4357
import Verif.Gen.Rfc5280

/-! Transcription of /repo/pyasn1_modules/rfc4490.py (generated by tools/gen.py). -/

namespace Verif
namespace Rfc4490

/-- rfc4490.py:25 alias of `rfc4357.id_CryptoPro_algorithms` -/
def id_CryptoPro_algorithms : Py.Obj :=
  Rfc4357.id_CryptoPro_algorithms

/-- rfc4490.py:27 alias of `rfc4357.id_GostR3410_94` -/
def id_GostR3410_94 : Py.Obj :=
  Rfc4357.id_GostR3410_94

/-- rfc4490.py:29 alias of `rfc4357.id_GostR3410_2001` -/
def id_GostR3410_2001 : Py.Obj :=
  Rfc4357.id_GostR3410_2001

/-- rfc4490.py:31 alias of `rfc4357.Gost28147_89_ParamSet` -/
def Gost28147_89_ParamSet : Py.Obj :=
  Rfc4357.Gost28147_89_ParamSet

/-- rfc4490.py:33 alias of `rfc4357.Gost28147_89_EncryptedKey` -/
def Gost28147_89_EncryptedKey : Py.Obj :=
  Rfc4357.Gost28147_89_EncryptedKey

/-- rfc4490.py:35 alias of `rfc4357.GostR3410_94_PublicKeyParameters` -/
def GostR3410_94_PublicKeyParameters : Py.Obj :=
  Rfc4357.GostR3410_94_PublicKeyParameters

/-- rfc4490.py:37 alias of `rfc4357.GostR3410_2001_PublicKeyParameters` -/
def GostR3410_2001_PublicKeyParameters : Py.Obj :=
  Rfc4357.GostR3410_2001_PublicKeyParameters

/-- rfc4490.py:42 alias of `rfc5280.SubjectPublicKeyInfo` -/
def SubjectPublicKeyInfo : Py.Obj :=
  Rfc5280.SubjectPublicKeyInfo

/-- rfc4490.py:47-52 `class Gost28147_89_KeyWrapParameters(univ.Sequence)` -/
def Gost28147_89_KeyWrapParameters : Py.Obj :=
  Py.univ.Sequence.setComponentType (Py.NamedTypes [
    Py.NamedType "encryptionParamSet" Rfc4490.Gost28147_89_ParamSet.call,
    Py.OptionalNamedType "ukm" (Py.univ.OctetString.call.addSubtypeSpec (Py.ValueSizeConstraint (.fin 8) (.fin 8)))])

/-- rfc4490.py:55 -/
def id_Gost28147_89_CryptoPro_KeyWrap : Py.Obj :=
  (Rfc4490.id_CryptoPro_algorithms.addArcs [13, 1])

/-- rfc4490.py:58 -/
def id_Gost28147_89_None_KeyWrap : Py.Obj :=
  (Rfc4490.id_CryptoPro_algorithms.addArcs [13, 0])

/-- rfc4490.py:61 -/
def id_GostR3410_2001_CryptoPro_ESDH : Py.Obj :=
  (Rfc4490.id_CryptoPro_algorithms.addArcs [96])

/-- rfc4490.py:64 -/
def id_GostR3410_94_CryptoPro_ESDH : Py.Obj :=
  (Rfc4490.id_CryptoPro_algorithms.addArcs [97])

/-- rfc4490.py:69 alias of `id_GostR3410_2001` -/
def id_GostR3410_2001_KeyTransportSMIMECapability : Py.Obj :=
  Rfc4490.id_GostR3410_2001

/-- rfc4490.py:72 alias of `id_GostR3410_94` -/
def id_GostR3410_94_KeyTransportSMIMECapability : Py.Obj :=
  Rfc4490.id_GostR3410_94

/-- rfc4490.py:75-83 `class GostR3410_TransportParameters(univ.Sequence)` -/
def GostR3410_TransportParameters : Py.Obj :=
  Py.univ.Sequence.setComponentType (Py.NamedTypes [
    Py.NamedType "encryptionParamSet" Rfc4490.Gost28147_89_ParamSet.call,
    Py.OptionalNamedType "ephemeralPublicKey" (Rfc4490.SubjectPublicKeyInfo.call.implicitTag (Py.Tag .context false 0)),
    Py.NamedType "ukm" (Py.univ.OctetString.call.addSubtypeSpec (Py.ValueSizeConstraint (.fin 8) (.fin 8)))])

/-- rfc4490.py:85-91 `class GostR3410_KeyTransport(univ.Sequence)` -/
def GostR3410_KeyTransport : Py.Obj :=
  Py.univ.Sequence.setComponentType (Py.NamedTypes [
    Py.NamedType "sessionEncryptedKey" Rfc4490.Gost28147_89_EncryptedKey.call,
    Py.OptionalNamedType "transportParameters" (Rfc4490.GostR3410_TransportParameters.call.implicitTag (Py.Tag .context true 0))])

/-- rfc4490.py:96-97 `class GostR3410_94_Signature(univ.OctetString)` -/
def GostR3410_94_Signature : Py.Obj :=
  Py.univ.OctetString.setSubtypeSpec (Py.ValueSizeConstraint (.fin 64) (.fin 64))

/-- rfc4490.py:102-103 `class GostR3410_2001_Signature(univ.OctetString)` -/
def GostR3410_2001_Signature : Py.Obj :=
  Py.univ.OctetString.setSubtypeSpec (Py.ValueSizeConstraint (.fin 64) (.fin 64))

/-- rfc4490.py:108-111 -/
def _algorithmIdentifierMapUpdate : Py.Entries :=
  [(Rfc4490.id_Gost28147_89_CryptoPro_KeyWrap.value, Rfc4490.Gost28147_89_KeyWrapParameters.call.ty),
    (Rfc4490.id_Gost28147_89_None_KeyWrap.value, Rfc4490.Gost28147_89_KeyWrapParameters.call.ty)]

/-- Modules of this package imported by rfc4490.py, in textual order. -/
def imports : List Py.Ident :=
  [(Py.mod 58 "rfc4357"), (Py.mod 15 "rfc5280")]

/-- Dictionary operations executed when rfc4490.py is imported, in program order. -/
def effects : List Py.Effect :=
  [.create (Py.map 68 "rfc4490._algorithmIdentifierMapUpdate") Rfc4490._algorithmIdentifierMapUpdate /- rfc4490.py:108-111 -/,
   .update (Py.map 3 "rfc5280.algorithmIdentifierMap") Rfc4490._algorithmIdentifierMapUpdate /- rfc4490.py:113 -/]

/-- ASN.1 types rfc4490.py binds at module level (final version of each name), plus nested classes. -/
def classes : List (String × Py.Obj) :=
  [("rfc4490.Gost28147_89_ParamSet", Rfc4490.Gost28147_89_ParamSet),
   ("rfc4490.Gost28147_89_EncryptedKey", Rfc4490.Gost28147_89_EncryptedKey),
   ("rfc4490.GostR3410_94_PublicKeyParameters", Rfc4490.GostR3410_94_PublicKeyParameters),
   ("rfc4490.GostR3410_2001_PublicKeyParameters", Rfc4490.GostR3410_2001_PublicKeyParameters),
   ("rfc4490.SubjectPublicKeyInfo", Rfc4490.SubjectPublicKeyInfo),
   ("rfc4490.Gost28147_89_KeyWrapParameters", Rfc4490.Gost28147_89_KeyWrapParameters),
   ("rfc4490.GostR3410_TransportParameters", Rfc4490.GostR3410_TransportParameters),
   ("rfc4490.GostR3410_KeyTransport", Rfc4490.GostR3410_KeyTransport),
   ("rfc4490.GostR3410_94_Signature", Rfc4490.GostR3410_94_Signature),
   ("rfc4490.GostR3410_2001_Signature", Rfc4490.GostR3410_2001_Signature)]

/-- pyasn1 instances rfc4490.py binds at module level. -/
def objects : List (String × Py.Obj) :=
  [("rfc4490.id_CryptoPro_algorithms", Rfc4490.id_CryptoPro_algorithms),
   ("rfc4490.id_GostR3410_94", Rfc4490.id_GostR3410_94),
   ("rfc4490.id_GostR3410_2001", Rfc4490.id_GostR3410_2001),
   ("rfc4490.id_Gost28147_89_CryptoPro_KeyWrap", Rfc4490.id_Gost28147_89_CryptoPro_KeyWrap),
   ("rfc4490.id_Gost28147_89_None_KeyWrap", Rfc4490.id_Gost28147_89_None_KeyWrap),
   ("rfc4490.id_GostR3410_2001_CryptoPro_ESDH", Rfc4490.id_GostR3410_2001_CryptoPro_ESDH),
   ("rfc4490.id_GostR3410_94_CryptoPro_ESDH", Rfc4490.id_GostR3410_94_CryptoPro_ESDH),
   ("rfc4490.id_GostR3410_2001_KeyTransportSMIMECapability", Rfc4490.id_GostR3410_2001_KeyTransportSMIMECapability),
   ("rfc4490.id_GostR3410_94_KeyTransportSMIMECapability", Rfc4490.id_GostR3410_94_KeyTransportSMIMECapability)]

/-- pyasn1 instances rfc4490.py fills in by item assignment. -/
def protos : List (String × Py.Proto) :=
  []

/-- Every place of rfc4490.py that instantiates a class of the package: where, the class as it is
at that point, and the class as it is when the import has finished. -/
def snapshots : List Py.Snapshot :=
  [⟨"rfc4490.py:49", Rfc4490.Gost28147_89_ParamSet, Rfc4490.Gost28147_89_ParamSet⟩,
   ⟨"rfc4490.py:77", Rfc4490.Gost28147_89_ParamSet, Rfc4490.Gost28147_89_ParamSet⟩,
   ⟨"rfc4490.py:79", Rfc4490.SubjectPublicKeyInfo, Rfc4490.SubjectPublicKeyInfo⟩,
   ⟨"rfc4490.py:87", Rfc4490.Gost28147_89_EncryptedKey, Rfc4490.Gost28147_89_EncryptedKey⟩,
   ⟨"rfc4490.py:89", Rfc4490.GostR3410_TransportParameters, Rfc4490.GostR3410_TransportParameters⟩,
   ⟨"rfc4490.py:109", Rfc4490.Gost28147_89_KeyWrapParameters, Rfc4490.Gost28147_89_KeyWrapParameters⟩,
   ⟨"rfc4490.py:110", Rfc4490.Gost28147_89_KeyWrapParameters, Rfc4490.Gost28147_89_KeyWrapParameters⟩]

/-- Functions rfc4490.py defines. -/
def builders : List (String × (List Py.OidArg → Py.Obj)) :=
  []

def asModule : Py.Module :=
  { id := (Py.mod 61 "rfc4490"), imports := imports, effects := effects, classes := classes, objects := objects, protos := protos, snapshots := snapshots, builders := builders }

end Rfc4490
end Verif
