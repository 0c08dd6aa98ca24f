import Verif.Asn1.Objects
import Verif.Std.Rfc6031
import Verif.Std.Rfc6019

/-! The objects of rfc6031 (generated by tools/objgen.py from tools/std/objects.txt). -/

set_option maxRecDepth 100000

namespace Verif
namespace Std
namespace Rfc6031

open Asn1 Spec.X680

def objects : List Object :=
  [⟨.SKEY_PKG_ATTRIBUTE, .oid [1, 2, 840, 113549, 1, 9, 16, 12, 1], UTF8String, (some .same)⟩,
   ⟨.SKEY_PKG_ATTRIBUTE, .oid [1, 2, 840, 113549, 1, 9, 16, 12, 2], UTF8String, (some .same)⟩,
   ⟨.SKEY_PKG_ATTRIBUTE, .oid [1, 2, 840, 113549, 1, 9, 16, 12, 3], UTF8String, (some .same)⟩,
   ⟨.SKEY_PKG_ATTRIBUTE, .oid [1, 2, 840, 113549, 1, 9, 16, 12, 4], UTF8String, (some .same)⟩,
   ⟨.SKEY_PKG_ATTRIBUTE, .oid [1, 2, 840, 113549, 1, 9, 16, 12, 5], UTF8String, (some .same)⟩,
   ⟨.SKEY_PKG_ATTRIBUTE, .oid [1, 2, 840, 113549, 1, 9, 16, 12, 6], GeneralizedTime, (some .same)⟩,
   ⟨.SKEY_PKG_ATTRIBUTE, .oid [1, 2, 840, 113549, 1, 9, 16, 12, 7], GeneralizedTime, (some .same)⟩,
   ⟨.SKEY_PKG_ATTRIBUTE, .oid [1, 2, 840, 113549, 1, 9, 16, 12, 8], UTF8String, (some .same)⟩,
   ⟨.SKEY_PKG_ATTRIBUTE, .oid [1, 2, 840, 113549, 1, 9, 16, 12, 26], UTF8String, (some .same)⟩,
   ⟨.SKEY_ATTRIBUTE, .oid [1, 2, 840, 113549, 1, 9, 16, 12, 9], UTF8String, (some .same)⟩,
   ⟨.SKEY_ATTRIBUTE, .oid [1, 2, 840, 113549, 1, 9, 16, 12, 10], UTF8String, (some .same)⟩,
   ⟨.SKEY_ATTRIBUTE, .oid [1, 2, 840, 113549, 1, 9, 16, 12, 11], UTF8String, (some .same)⟩,
   ⟨.SKEY_ATTRIBUTE, .oid [1, 2, 840, 113549, 1, 9, 16, 12, 12], UTF8String, (some .same)⟩,
   ⟨.SKEY_ATTRIBUTE, .oid [1, 2, 840, 113549, 1, 9, 16, 12, 13], UTF8String, (some .same)⟩,
   ⟨.SKEY_ATTRIBUTE, .oid [1, 2, 840, 113549, 1, 9, 16, 12, 14], FriendlyName, (some .same)⟩,
   ⟨.SKEY_ATTRIBUTE, .oid [1, 2, 840, 113549, 1, 9, 16, 12, 15], PSKCAlgorithmParameters, (some .relaxed)⟩,
   ⟨.SKEY_ATTRIBUTE, .oid [1, 2, 840, 113549, 1, 9, 16, 12, 16], (constrained (RANGE_MAX 0) INTEGER), (some .same)⟩,
   ⟨.SKEY_ATTRIBUTE, .oid [1, 2, 840, 113549, 1, 9, 16, 12, 17], Std.Rfc6019.BinaryTime, (some .same)⟩,
   ⟨.SKEY_ATTRIBUTE, .oid [1, 2, 840, 113549, 1, 9, 16, 12, 18], (constrained (RANGE_MAX 0) INTEGER), (some .same)⟩,
   ⟨.SKEY_ATTRIBUTE, .oid [1, 2, 840, 113549, 1, 9, 16, 12, 19], (constrained (RANGE_MAX 0) INTEGER), (some .same)⟩,
   ⟨.SKEY_ATTRIBUTE, .oid [1, 2, 840, 113549, 1, 9, 16, 12, 20], ValueMac, (some .same)⟩,
   ⟨.SKEY_ATTRIBUTE, .oid [1, 2, 840, 113549, 1, 9, 16, 12, 27], UTF8String, (some .same)⟩,
   ⟨.SKEY_ATTRIBUTE, .oid [1, 2, 840, 113549, 1, 9, 16, 12, 21], GeneralizedTime, (some .same)⟩,
   ⟨.SKEY_ATTRIBUTE, .oid [1, 2, 840, 113549, 1, 9, 16, 12, 22], GeneralizedTime, (some .same)⟩,
   ⟨.SKEY_ATTRIBUTE, .oid [1, 2, 840, 113549, 1, 9, 16, 12, 23], (constrained (RANGE_MAX 0) INTEGER), (some .same)⟩,
   ⟨.SKEY_ATTRIBUTE, .oid [1, 2, 840, 113549, 1, 9, 16, 12, 24], PSKCKeyUsages, (some .same)⟩,
   ⟨.SKEY_ATTRIBUTE, .oid [1, 2, 840, 113549, 1, 9, 16, 12, 25], PINPolicy, (some .relaxed)⟩,
   ⟨.CONTENT_TYPE, .oid [1, 2, 840, 113549, 1, 9, 16, 1, 25], SymmetricKeyPackage, (some .relaxed)⟩]

def unlisted : List (ObjClass × Val) :=
  []

def registered : Objects := ⟨Verif.Rfc6031.asModule, objects, unlisted⟩

end Rfc6031
end Std
end Verif
