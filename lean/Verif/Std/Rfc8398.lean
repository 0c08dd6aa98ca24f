import Verif.Spec.Grade
import Verif.Gen.Rfc8398

/-! The ASN.1 of tools/std/rfc8398.asn1 (generated by tools/stdgen.py). -/

namespace Verif
namespace Std
namespace Rfc8398

open Asn1 Spec.X680

/-- `SmtpUTF8Mailbox ::=` -/
def SmtpUTF8Mailbox : Ty :=
  constrained (SIZE_MAX 1) UTF8String

/-- Classes of rfc8398.py and the types of the standard they implement. -/
def entries : List Entry :=
  [⟨"rfc8398.SmtpUTF8Mailbox", Verif.Rfc8398.SmtpUTF8Mailbox, SmtpUTF8Mailbox, .same, false⟩]

/-- Classes of rfc8398.py the transcription of the standard has no type for. -/
def beyond : List String :=
  []

/-- Constants of rfc8398.py and the values the standard gives them. -/
def constants : List Constant :=
  [⟨"rfc8398.id_pkix", Verif.Rfc8398.id_pkix, OBJECT_IDENTIFIER, .oid [1, 3, 6, 1, 5, 5, 7], true⟩,
   ⟨"rfc8398.id_on", Verif.Rfc8398.id_on, OBJECT_IDENTIFIER, .oid [1, 3, 6, 1, 5, 5, 7, 8], true⟩,
   ⟨"rfc8398.id_on_SmtpUTF8Mailbox", Verif.Rfc8398.id_on_SmtpUTF8Mailbox, OBJECT_IDENTIFIER, .oid [1, 3, 6, 1, 5, 5, 7, 8, 9], true⟩]

/-- Constants of rfc8398.py the transcription of the standard has no value for. -/
def others : List String :=
  ["rfc8398.on_SmtpUTF8Mailbox"]

def standard : Standard := ⟨Verif.Rfc8398.asModule, entries, beyond, constants, others⟩

end Rfc8398
end Std
end Verif
