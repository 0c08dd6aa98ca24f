import Verif.Spec.Grade
import Verif.Gen.Rfc5751
import Verif.Std.Rfc5652

/-! The ASN.1 of tools/std/rfc5751.asn1 (generated by tools/stdgen.py). -/

namespace Verif
namespace Std
namespace Rfc5751

open Asn1 Spec.X680

/-- `SMIMECapability ::=` -/
def SMIMECapability : Ty :=
  SEQUENCE [
    mandatory "capabilityID" OBJECT_IDENTIFIER,
    optional "parameters" ANY]

/-- `SMIMECapabilities ::=` -/
def SMIMECapabilities : Ty :=
  SEQUENCE_OF SMIMECapability

/-- `SMIMEEncryptionKeyPreference ::=` -/
def SMIMEEncryptionKeyPreference : Ty :=
  CHOICE [
    mandatory "issuerAndSerialNumber" (implicit .context 0 Std.Rfc5652.IssuerAndSerialNumber),
    mandatory "receipentKeyId" (implicit .context 1 Std.Rfc5652.RecipientKeyIdentifier),
    mandatory "subjectAltKeyIdentifier" (implicit .context 2 Std.Rfc5652.SubjectKeyIdentifier)]

/-- `SMIMECapabilitiesParametersForRC2CBC ::=` -/
def SMIMECapabilitiesParametersForRC2CBC : Ty :=
  INTEGER

/-- Classes of rfc5751.py and the types of the standard they implement. -/
def entries : List Entry :=
  [⟨"rfc5751.IssuerAndSerialNumber", Verif.Rfc5751.IssuerAndSerialNumber, Std.Rfc5652.IssuerAndSerialNumber, .same, false⟩,
   ⟨"rfc5751.RecipientKeyIdentifier", Verif.Rfc5751.RecipientKeyIdentifier, Std.Rfc5652.RecipientKeyIdentifier, .same, false⟩,
   ⟨"rfc5751.SubjectKeyIdentifier", Verif.Rfc5751.SubjectKeyIdentifier, Std.Rfc5652.SubjectKeyIdentifier, .same, false⟩,
   ⟨"rfc5751.SMIMECapability", Verif.Rfc5751.SMIMECapability, SMIMECapability, .same, false⟩,
   ⟨"rfc5751.SMIMECapabilities", Verif.Rfc5751.SMIMECapabilities, SMIMECapabilities, .same, false⟩,
   ⟨"rfc5751.SMIMECapabilitiesParametersForRC2CBC", Verif.Rfc5751.SMIMECapabilitiesParametersForRC2CBC, SMIMECapabilitiesParametersForRC2CBC, .same, false⟩,
   ⟨"rfc5751.SMIMEEncryptionKeyPreference", Verif.Rfc5751.SMIMEEncryptionKeyPreference, SMIMEEncryptionKeyPreference, .same, false⟩]

/-- Classes of rfc5751.py the transcription of the standard has no type for. -/
def beyond : List String :=
  []

/-- Constants of rfc5751.py and the values the standard gives them. -/
def constants : List Constant :=
  [⟨"rfc5751.rc2CBC", Verif.Rfc5751.rc2CBC, OBJECT_IDENTIFIER, .oid [1, 2, 840, 113549, 3, 2], true⟩,
   ⟨"rfc5751.smimeCapabilities", Verif.Rfc5751.smimeCapabilities, OBJECT_IDENTIFIER, .oid [1, 2, 840, 113549, 1, 9, 15], true⟩,
   ⟨"rfc5751.id_smime", Verif.Rfc5751.id_smime, OBJECT_IDENTIFIER, .oid [1, 2, 840, 113549, 1, 9, 16], true⟩,
   ⟨"rfc5751.id_aa", Verif.Rfc5751.id_aa, OBJECT_IDENTIFIER, .oid [1, 2, 840, 113549, 1, 9, 16, 2], true⟩,
   ⟨"rfc5751.id_aa_encrypKeyPref", Verif.Rfc5751.id_aa_encrypKeyPref, OBJECT_IDENTIFIER, .oid [1, 2, 840, 113549, 1, 9, 16, 2, 11], true⟩,
   ⟨"rfc5751.id_cap", Verif.Rfc5751.id_cap, OBJECT_IDENTIFIER, .oid [1, 2, 840, 113549, 1, 9, 16, 11], true⟩,
   ⟨"rfc5751.id_cap_preferBinaryInside", Verif.Rfc5751.id_cap_preferBinaryInside, OBJECT_IDENTIFIER, .oid [1, 2, 840, 113549, 1, 9, 16, 11, 1], true⟩]

/-- Constants of rfc5751.py the transcription of the standard has no value for. -/
def others : List String :=
  []

def standard : Standard := ⟨Verif.Rfc5751.asModule, entries, beyond, constants, others⟩

end Rfc5751
end Std
end Verif
