import Verif.Spec.Grade
import Verif.Gen.Rfc3820

/-! The ASN.1 of tools/std/rfc3820.asn1 (generated by tools/stdgen.py). -/

namespace Verif
namespace Std
namespace Rfc3820

open Asn1 Spec.X680

/-- `ProxyCertPathLengthConstraint ::=` -/
def ProxyCertPathLengthConstraint : Ty :=
  INTEGER

/-- `ProxyPolicy ::=` -/
def ProxyPolicy : Ty :=
  SEQUENCE [
    mandatory "policyLanguage" OBJECT_IDENTIFIER,
    optional "policy" OCTET_STRING]

/-- `ProxyCertInfoExtension ::=` -/
def ProxyCertInfoExtension : Ty :=
  SEQUENCE [
    optional "pCPathLenConstraint" ProxyCertPathLengthConstraint,
    mandatory "proxyPolicy" ProxyPolicy]

/-- Classes of rfc3820.py and the types of the standard they implement. -/
def entries : List Entry :=
  [⟨"rfc3820.ProxyCertPathLengthConstraint", Verif.Rfc3820.ProxyCertPathLengthConstraint, ProxyCertPathLengthConstraint, .same, false⟩,
   ⟨"rfc3820.ProxyPolicy", Verif.Rfc3820.ProxyPolicy, ProxyPolicy, .same, false⟩,
   ⟨"rfc3820.ProxyCertInfoExtension", Verif.Rfc3820.ProxyCertInfoExtension, ProxyCertInfoExtension, .same, false⟩]

/-- Classes of rfc3820.py the transcription of the standard has no type for. -/
def beyond : List String :=
  []

/-- Constants of rfc3820.py and the values the standard gives them. -/
def constants : List Constant :=
  [⟨"rfc3820.id_pkix", Verif.Rfc3820.id_pkix, OBJECT_IDENTIFIER, .oid [1, 3, 6, 1, 5, 5, 7], true⟩,
   ⟨"rfc3820.id_pe", Verif.Rfc3820.id_pe, OBJECT_IDENTIFIER, .oid [1, 3, 6, 1, 5, 5, 7, 1], true⟩,
   ⟨"rfc3820.id_pe_proxyCertInfo", Verif.Rfc3820.id_pe_proxyCertInfo, OBJECT_IDENTIFIER, .oid [1, 3, 6, 1, 5, 5, 7, 1, 14], true⟩,
   ⟨"rfc3820.id_ppl", Verif.Rfc3820.id_ppl, OBJECT_IDENTIFIER, .oid [1, 3, 6, 1, 5, 5, 7, 21], true⟩,
   ⟨"rfc3820.id_ppl_anyLanguage", Verif.Rfc3820.id_ppl_anyLanguage, OBJECT_IDENTIFIER, .oid [1, 3, 6, 1, 5, 5, 7, 21, 0], true⟩,
   ⟨"rfc3820.id_ppl_inheritAll", Verif.Rfc3820.id_ppl_inheritAll, OBJECT_IDENTIFIER, .oid [1, 3, 6, 1, 5, 5, 7, 21, 1], true⟩,
   ⟨"rfc3820.id_ppl_independent", Verif.Rfc3820.id_ppl_independent, OBJECT_IDENTIFIER, .oid [1, 3, 6, 1, 5, 5, 7, 21, 2], true⟩]

/-- Constants of rfc3820.py the transcription of the standard has no value for. -/
def others : List String :=
  []

def standard : Standard := ⟨Verif.Rfc3820.asModule, entries, beyond, constants, others⟩

end Rfc3820
end Std
end Verif
