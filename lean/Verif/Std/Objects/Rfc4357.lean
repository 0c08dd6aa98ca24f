import Verif.Asn1.Objects
import Verif.Std.Rfc4357

/-! The objects of rfc4357 (generated by tools/objgen.py from tools/std/objects.txt). -/

set_option maxRecDepth 100000

namespace Verif
namespace Std
namespace Rfc4357

open Asn1 Spec.X680

def objects : List Object :=
  [⟨.ALGORITHM, .oid [1, 2, 643, 2, 2, 21], Gost28147_89_Parameters, (some .same)⟩,
   ⟨.ALGORITHM, .oid [1, 2, 643, 2, 2, 31, 0], Verif.Rfc4357.Gost28147_89_ParamSetParameters.call.ty, (some .same)⟩,
   ⟨.ALGORITHM, .oid [1, 2, 643, 2, 2, 31, 1], Verif.Rfc4357.Gost28147_89_ParamSetParameters.call.ty, (some .same)⟩,
   ⟨.ALGORITHM, .oid [1, 2, 643, 2, 2, 31, 2], Verif.Rfc4357.Gost28147_89_ParamSetParameters.call.ty, (some .same)⟩,
   ⟨.ALGORITHM, .oid [1, 2, 643, 2, 2, 31, 3], Verif.Rfc4357.Gost28147_89_ParamSetParameters.call.ty, (some .same)⟩,
   ⟨.ALGORITHM, .oid [1, 2, 643, 2, 2, 31, 4], Verif.Rfc4357.Gost28147_89_ParamSetParameters.call.ty, (some .same)⟩,
   ⟨.ALGORITHM, .oid [1, 2, 643, 2, 2, 14, 1], NULL, (some .same)⟩,
   ⟨.ALGORITHM, .oid [1, 2, 643, 2, 2, 14, 0], NULL, (some .same)⟩,
   ⟨.ALGORITHM, .oid [1, 2, 643, 2, 2, 20], Verif.Rfc4357.GostR3410_94_PublicKeyParameters.call.ty, (some .same)⟩,
   ⟨.ALGORITHM, .oid [1, 2, 643, 2, 2, 32, 0], Verif.Rfc4357.GostR3410_94_ParamSetParameters.call.ty, (some .same)⟩,
   ⟨.ALGORITHM, .oid [1, 2, 643, 2, 2, 32, 2], Verif.Rfc4357.GostR3410_94_ParamSetParameters.call.ty, (some .same)⟩,
   ⟨.ALGORITHM, .oid [1, 2, 643, 2, 2, 32, 3], Verif.Rfc4357.GostR3410_94_ParamSetParameters.call.ty, (some .same)⟩,
   ⟨.ALGORITHM, .oid [1, 2, 643, 2, 2, 32, 4], Verif.Rfc4357.GostR3410_94_ParamSetParameters.call.ty, (some .same)⟩,
   ⟨.ALGORITHM, .oid [1, 2, 643, 2, 2, 32, 5], Verif.Rfc4357.GostR3410_94_ParamSetParameters.call.ty, (some .same)⟩,
   ⟨.ALGORITHM, .oid [1, 2, 643, 2, 2, 33, 1], Verif.Rfc4357.GostR3410_94_ParamSetParameters.call.ty, (some .same)⟩,
   ⟨.ALGORITHM, .oid [1, 2, 643, 2, 2, 33, 2], Verif.Rfc4357.GostR3410_94_ParamSetParameters.call.ty, (some .same)⟩,
   ⟨.ALGORITHM, .oid [1, 2, 643, 2, 2, 33, 3], Verif.Rfc4357.GostR3410_94_ParamSetParameters.call.ty, (some .same)⟩,
   ⟨.ALGORITHM, .oid [1, 2, 643, 2, 2, 20, 1], Verif.Rfc4357.GostR3410_94_ValidationParameters.call.ty, (some .same)⟩,
   ⟨.ALGORITHM, .oid [1, 2, 643, 2, 2, 20, 2], Verif.Rfc4357.GostR3410_94_ValidationBisParameters.call.ty, (some .same)⟩,
   ⟨.ALGORITHM, .oid [1, 2, 643, 2, 2, 20, 3], Verif.Rfc4357.GostR3410_94_ValidationParameters.call.ty, (some .same)⟩,
   ⟨.ALGORITHM, .oid [1, 2, 643, 2, 2, 20, 4], Verif.Rfc4357.GostR3410_94_ValidationBisParameters.call.ty, (some .same)⟩,
   ⟨.ALGORITHM, .oid [1, 2, 643, 2, 2, 19], Verif.Rfc4357.GostR3410_2001_PublicKeyParameters.call.ty, (some (.refused [48, 18, 6, 7, 42, 133, 3, 2, 2, 35, 0, 6, 7, 42, 133, 3, 2, 2, 30, 0]))⟩,
   ⟨.ALGORITHM, .oid [1, 2, 643, 2, 2, 30, 0], GostR3411_94_ParamSetParameters, (some .same)⟩,
   ⟨.ALGORITHM, .oid [1, 2, 643, 2, 2, 30, 1], GostR3411_94_ParamSetParameters, (some .same)⟩]

def unlisted : List (ObjClass × Val) :=
  [(.ALGORITHM, .oid [1, 2, 643, 2, 2, 9])]

def registered : Objects := ⟨Verif.Rfc4357.asModule, objects, unlisted⟩

end Rfc4357
end Std
end Verif
