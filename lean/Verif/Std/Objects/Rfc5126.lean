import Verif.Asn1.Objects
import Verif.Std.Rfc5126

/-! The objects of rfc5126 (generated by tools/objgen.py from tools/std/objects.txt). -/

set_option maxRecDepth 100000

namespace Verif
namespace Std
namespace Rfc5126

open Asn1 Spec.X680

def objects : List Object :=
  [⟨.SIG_POLICY_QUALIFIER, .oid [1, 2, 840, 113549, 1, 9, 16, 5, 2], SPUserNotice, (some .same)⟩,
   ⟨.SIG_POLICY_QUALIFIER, .oid [1, 2, 840, 113549, 1, 9, 16, 5, 1], SPuri, (some .same)⟩,
   ⟨.CMS_ATTRIBUTE, .oid [1, 2, 840, 113549, 1, 9, 16, 2, 19], OtherSigningCertificate, (some .relaxed)⟩,
   ⟨.CMS_ATTRIBUTE, .oid [1, 2, 840, 113549, 1, 9, 16, 2, 15], SignaturePolicy, (some .same)⟩,
   ⟨.CMS_ATTRIBUTE, .oid [1, 2, 840, 113549, 1, 9, 16, 2, 16], CommitmentTypeIndication, (some .same)⟩,
   ⟨.CMS_ATTRIBUTE, .oid [1, 2, 840, 113549, 1, 9, 16, 2, 17], SignerLocation, (some .same)⟩,
   ⟨.CMS_ATTRIBUTE, .oid [1, 2, 840, 113549, 1, 9, 16, 2, 14], SignatureTimeStampToken, (some .same)⟩,
   ⟨.CMS_ATTRIBUTE, .oid [1, 2, 840, 113549, 1, 9, 16, 2, 20], ContentTimestamp, (some .same)⟩,
   ⟨.CMS_ATTRIBUTE, .oid [1, 2, 840, 113549, 1, 9, 16, 2, 18], SignerAttribute, (some .same)⟩,
   ⟨.CMS_ATTRIBUTE, .oid [1, 2, 840, 113549, 1, 9, 16, 2, 21], CompleteCertificateRefs, (some .same)⟩,
   ⟨.CMS_ATTRIBUTE, .oid [1, 2, 840, 113549, 1, 9, 16, 2, 22], CompleteRevocationRefs, (some .same)⟩,
   ⟨.CMS_ATTRIBUTE, .oid [1, 2, 840, 113549, 1, 9, 16, 2, 23], CertificateValues, (some .same)⟩,
   ⟨.CMS_ATTRIBUTE, .oid [1, 2, 840, 113549, 1, 9, 16, 2, 24], RevocationValues, (some .same)⟩,
   ⟨.CMS_ATTRIBUTE, .oid [1, 2, 840, 113549, 1, 9, 16, 2, 25], ESCTimeStampToken, (some .same)⟩,
   ⟨.CMS_ATTRIBUTE, .oid [1, 2, 840, 113549, 1, 9, 16, 2, 26], TimestampedCertsCRLs, (some .same)⟩,
   ⟨.CMS_ATTRIBUTE, .oid [1, 2, 840, 113549, 1, 9, 16, 2, 48], ArchiveTimeStampToken, (some .same)⟩,
   ⟨.CMS_ATTRIBUTE, .oid [1, 2, 840, 113549, 1, 9, 16, 2, 44], AttributeCertificateRefs, (some .same)⟩,
   ⟨.CMS_ATTRIBUTE, .oid [1, 2, 840, 113549, 1, 9, 16, 2, 45], AttributeRevocationRefs, (some .same)⟩]

def unlisted : List (ObjClass × Val) :=
  []

def registered : Objects := ⟨Verif.Rfc5126.asModule, objects, unlisted⟩

end Rfc5126
end Std
end Verif
