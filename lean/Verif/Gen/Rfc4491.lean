import Verif.Py.Obj
import Verif.Gen.Rfc4357

/-! Transcription of /repo/pyasn1_modules/rfc4491.py (generated by tools/gen.py). -/

namespace Verif
namespace Rfc4491

/-- rfc4491.py:21 alias of `rfc4357.id_GostR3411_94_with_GostR3410_94` -/
def id_GostR3411_94_with_GostR3410_94 : Py.Obj :=
  Rfc4357.id_GostR3411_94_with_GostR3410_94

/-- rfc4491.py:26 alias of `rfc4357.id_GostR3411_94_with_GostR3410_2001` -/
def id_GostR3411_94_with_GostR3410_2001 : Py.Obj :=
  Rfc4357.id_GostR3411_94_with_GostR3410_2001

/-- rfc4491.py:31 alias of `rfc4357.id_GostR3410_94` -/
def id_GostR3410_94 : Py.Obj :=
  Rfc4357.id_GostR3410_94

/-- rfc4491.py:33 alias of `rfc4357.GostR3410_2001_PublicKey` -/
def GostR3410_2001_PublicKey : Py.Obj :=
  Rfc4357.GostR3410_2001_PublicKey

/-- rfc4491.py:35 alias of `rfc4357.GostR3410_2001_PublicKeyParameters` -/
def GostR3410_2001_PublicKeyParameters : Py.Obj :=
  Rfc4357.GostR3410_2001_PublicKeyParameters

/-- rfc4491.py:40 alias of `rfc4357.id_GostR3410_2001` -/
def id_GostR3410_2001 : Py.Obj :=
  Rfc4357.id_GostR3410_2001

/-- rfc4491.py:42 alias of `rfc4357.GostR3410_94_PublicKey` -/
def GostR3410_94_PublicKey : Py.Obj :=
  Rfc4357.GostR3410_94_PublicKey

/-- rfc4491.py:44 alias of `rfc4357.GostR3410_94_PublicKeyParameters` -/
def GostR3410_94_PublicKeyParameters : Py.Obj :=
  Rfc4357.GostR3410_94_PublicKeyParameters

/-- Modules of this package imported by rfc4491.py, in textual order. -/
def imports : List Py.Ident :=
  [(Py.mod 58 "rfc4357")]

/-- Dictionary operations executed when rfc4491.py is imported, in program order. -/
def effects : List Py.Effect :=
  []

/-- ASN.1 types rfc4491.py binds at module level (final version of each name), plus nested classes. -/
def classes : List (String × Py.Obj) :=
  [("rfc4491.GostR3410_2001_PublicKey", Rfc4491.GostR3410_2001_PublicKey),
   ("rfc4491.GostR3410_2001_PublicKeyParameters", Rfc4491.GostR3410_2001_PublicKeyParameters),
   ("rfc4491.GostR3410_94_PublicKey", Rfc4491.GostR3410_94_PublicKey),
   ("rfc4491.GostR3410_94_PublicKeyParameters", Rfc4491.GostR3410_94_PublicKeyParameters)]

/-- pyasn1 instances rfc4491.py binds at module level. -/
def objects : List (String × Py.Obj) :=
  [("rfc4491.id_GostR3411_94_with_GostR3410_94", Rfc4491.id_GostR3411_94_with_GostR3410_94),
   ("rfc4491.id_GostR3411_94_with_GostR3410_2001", Rfc4491.id_GostR3411_94_with_GostR3410_2001),
   ("rfc4491.id_GostR3410_94", Rfc4491.id_GostR3410_94),
   ("rfc4491.id_GostR3410_2001", Rfc4491.id_GostR3410_2001)]

/-- pyasn1 instances rfc4491.py fills in by item assignment. -/
def protos : List (String × Py.Proto) :=
  []

/-- Every place of rfc4491.py that instantiates a class of the package: where, the class as it is
at that point, and the class as it is when the import has finished. -/
def snapshots : List Py.Snapshot :=
  []

/-- Functions rfc4491.py defines. -/
def builders : List (String × (List Py.OidArg → Py.Obj)) :=
  []

def asModule : Py.Module :=
  { id := (Py.mod 62 "rfc4491"), imports := imports, effects := effects, classes := classes, objects := objects, protos := protos, snapshots := snapshots, builders := builders }

end Rfc4491
end Verif
