import Verif.Asn1.Objects
import Verif.Std.Rfc7906
import Verif.Std.Rfc2634

/-! The objects of rfc7906 (generated by tools/objgen.py from tools/std/objects.txt). -/

set_option maxRecDepth 100000

namespace Verif
namespace Std
namespace Rfc7906

open Asn1 Spec.X680

def objects : List Object :=
  [⟨.CMS_ATTRIBUTE, .oid [1, 2, 840, 113549, 1, 9, 16, 2, 40], Std.Rfc4108.CommunityIdentifiers, (some .same)⟩,
   ⟨.CMS_ATTRIBUTE, .oid [1, 2, 840, 113549, 1, 9, 16, 2, 46], Std.Rfc6019.BinarySigningTime, (some .same)⟩,
   ⟨.CMS_ATTRIBUTE, .oid [1, 2, 840, 113549, 1, 9, 3], Std.Rfc5652.ContentType, (some .same)⟩,
   ⟨.CMS_ATTRIBUTE, .oid [1, 2, 840, 113549, 1, 9, 4], Std.Rfc5652.MessageDigest, (some .same)⟩,
   ⟨.CMS_ATTRIBUTE, .oid [2, 16, 840, 1, 101, 2, 1, 5, 65], Std.Rfc7191.KeyPkgIdentifierAndReceiptReq, (some .same)⟩,
   ⟨.CMS_ATTRIBUTE, .oid [2, 16, 840, 1, 101, 2, 1, 5, 71], KeyProvinceV2, (some .same)⟩,
   ⟨.CMS_ATTRIBUTE, .oid [2, 16, 840, 1, 101, 2, 1, 5, 72], Manifest, (some .same)⟩,
   ⟨.CMS_ATTRIBUTE, .oid [2, 16, 840, 1, 101, 2, 1, 13, 1], KeyAlgorithm, (some .same)⟩,
   ⟨.CMS_ATTRIBUTE, .oid [2, 5, 4, 36], Std.Rfc5280.Certificate, (some .same)⟩,
   ⟨.CMS_ATTRIBUTE, .oid [2, 16, 840, 1, 101, 2, 1, 13, 16], KeyPkgReceiversV2, (some .same)⟩,
   ⟨.CMS_ATTRIBUTE, .oid [2, 16, 840, 1, 101, 2, 1, 13, 3], TSECNomenclature, (some .same)⟩,
   ⟨.CMS_ATTRIBUTE, .oid [2, 16, 840, 1, 101, 2, 1, 13, 13], Verif.Rfc7906.KeyPurpose.call.ty, (some .same)⟩,
   ⟨.CMS_ATTRIBUTE, .oid [2, 16, 840, 1, 101, 2, 1, 13, 14], KeyUse, (some .same)⟩,
   ⟨.CMS_ATTRIBUTE, .oid [2, 16, 840, 1, 101, 2, 1, 13, 15], TransOp, (some .same)⟩,
   ⟨.CMS_ATTRIBUTE, .oid [2, 16, 840, 1, 101, 2, 1, 13, 5], KeyDistPeriod, (some .same)⟩,
   ⟨.CMS_ATTRIBUTE, .oid [2, 16, 840, 1, 101, 2, 1, 13, 6], KeyValidityPeriod, (some .same)⟩,
   ⟨.CMS_ATTRIBUTE, .oid [2, 16, 840, 1, 101, 2, 1, 13, 7], KeyDuration, (some .same)⟩,
   ⟨.CMS_ATTRIBUTE, .oid [2, 16, 840, 1, 101, 2, 1, 13, 11], SplitID, (some .same)⟩,
   ⟨.CMS_ATTRIBUTE, .oid [2, 16, 840, 1, 101, 2, 1, 13, 12], KeyPkgType, (some .same)⟩,
   ⟨.CMS_ATTRIBUTE, .oid [2, 16, 840, 1, 101, 2, 1, 13, 22], SignatureUsage, (some .same)⟩,
   ⟨.CMS_ATTRIBUTE, .oid [2, 16, 840, 1, 101, 2, 1, 13, 19], Std.Rfc5652.CertificateChoices, (some .same)⟩,
   ⟨.CMS_ATTRIBUTE, .oid [2, 5, 4, 70], PkiPath, (some .same)⟩,
   ⟨.CMS_ATTRIBUTE, .oid [2, 16, 840, 1, 101, 2, 1, 13, 20], Std.Rfc5652.CertificateSet, (some .same)⟩,
   ⟨.CMS_ATTRIBUTE, .oid [2, 16, 840, 1, 101, 2, 1, 13, 21], Std.Rfc5280.AlgorithmIdentifier, (some .same)⟩,
   ⟨.CMS_ATTRIBUTE, .oid [2, 16, 840, 1, 101, 2, 1, 5, 66], Std.Rfc6032.ContentDecryptKeyID, (some .same)⟩,
   ⟨.CMS_ATTRIBUTE, .oid [1, 3, 6, 1, 5, 5, 7, 1, 11], Std.Rfc5280.SubjectInfoAccessSyntax, (some .same)⟩,
   ⟨.CMS_ATTRIBUTE, .oid [2, 16, 840, 1, 101, 2, 1, 5, 70], Std.Rfc5280.GeneralNames, (some .same)⟩,
   ⟨.CMS_ATTRIBUTE, .oid [1, 2, 840, 113549, 1, 9, 16, 2, 4], Std.Rfc2634.ContentHints, (some .same)⟩,
   ⟨.CMS_ATTRIBUTE, .oid [1, 2, 840, 113549, 1, 9, 16, 2, 2], Classification, (some (.rewritten (.record (Vals.cons (.oid [1, 3]) (Vals.cons (.absent) (Vals.cons (.absent) (Vals.cons (.list (Vals.cons (.record (Vals.cons (.oid [1, 3]) (Vals.cons (.octets [5, 0]) (Vals.nil)))) (Vals.nil))) (Vals.nil))))))))⟩]

def unlisted : List (ObjClass × Val) :=
  []

def registered : Objects := ⟨Verif.Rfc7906.asModule, objects, unlisted⟩

end Rfc7906
end Std
end Verif
