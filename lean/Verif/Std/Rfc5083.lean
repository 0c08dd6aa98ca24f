import Verif.Spec.Grade
import Verif.Gen.Rfc5083
import Verif.Std.Rfc5652

/-! The ASN.1 of tools/std/rfc5083.asn1 (generated by tools/stdgen.py). -/

namespace Verif
namespace Std
namespace Rfc5083

open Asn1 Spec.X680

/-- `AuthEnvelopedData ::=` -/
def AuthEnvelopedData : Ty :=
  SEQUENCE [
    mandatory "version" Std.Rfc5652.CMSVersion,
    optional "originatorInfo" (implicit .context 0 Std.Rfc5652.OriginatorInfo),
    mandatory "recipientInfos" Std.Rfc5652.RecipientInfos,
    mandatory "authEncryptedContentInfo" Std.Rfc5652.EncryptedContentInfo,
    optional "authAttrs" (implicit .context 1 Std.Rfc5652.AuthAttributes),
    mandatory "mac" Std.Rfc5652.MessageAuthenticationCode,
    optional "unauthAttrs" (implicit .context 2 Std.Rfc5652.UnauthAttributes)]

/-- Classes of rfc5083.py and the types of the standard they implement. -/
def entries : List Entry :=
  [⟨"rfc5083.AuthEnvelopedData", Verif.Rfc5083.AuthEnvelopedData, AuthEnvelopedData, .same, false⟩]

/-- Classes of rfc5083.py the transcription of the standard has no type for. -/
def beyond : List String :=
  []

/-- Constants of rfc5083.py and the values the standard gives them. -/
def constants : List Constant :=
  [⟨"rfc5083.id_ct_authEnvelopedData", Verif.Rfc5083.id_ct_authEnvelopedData, OBJECT_IDENTIFIER, .oid [1, 2, 840, 113549, 1, 9, 16, 1, 23], true⟩]

/-- Constants of rfc5083.py the transcription of the standard has no value for. -/
def others : List String :=
  []

def standard : Standard := ⟨Verif.Rfc5083.asModule, entries, beyond, constants, others⟩

end Rfc5083
end Std
end Verif
