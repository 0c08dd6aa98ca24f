import Verif.Spec.Built
import Verif.Std.Rfc7191
import Verif.Built.Rfc5280
import Verif.Std.Rfc5280

/-! What rfc7191.py implements, where that is not the standard (generated by tools/builtgen.py). -/

namespace Verif
namespace Built
namespace Rfc7191

open Asn1 Verif.Std Spec.X680 Spec.Built

/-- `AttributeValues ::=`, changed or supplied -/
def AttributeValues : Ty :=
  constrained (SIZE 1 1) (SET_OF ANY)

/-- `Siren-dn ::=`, changed or supplied -/
def Siren_dn : Ty :=
  Std.Rfc7191.SIREntityName

def description : Description :=
  ⟨Verif.Rfc7191.asModule,
   [⟨"rfc7191.DistinguishedName", Verif.Rfc7191.DistinguishedName, Std.Rfc7191.DistinguishedName⟩,
    ⟨"rfc7191.AttributeValue", Verif.Rfc7191.AttributeValue, Std.Rfc5280.AttributeValue⟩,
    ⟨"rfc7191.AttributeValues", Verif.Rfc7191.AttributeValues, Built.Rfc7191.AttributeValues⟩,
    ⟨"rfc7191.SingleAttribute", Verif.Rfc7191.SingleAttribute, Std.Rfc7191.SingleAttribute⟩,
    ⟨"rfc7191.SIREntityNameType", Verif.Rfc7191.SIREntityNameType, Std.Rfc7191.SIREntityNameType⟩,
    ⟨"rfc7191.SIREntityNameValue", Verif.Rfc7191.SIREntityNameValue, Std.Rfc7191.SIREntityNameValue⟩,
    ⟨"rfc7191.SIREntityName", Verif.Rfc7191.SIREntityName, Std.Rfc7191.SIREntityName⟩,
    ⟨"rfc7191.SIREntityNames", Verif.Rfc7191.SIREntityNames, Std.Rfc7191.SIREntityNames⟩,
    ⟨"rfc7191.siren_dn", Verif.Rfc7191.siren_dn, Built.Rfc7191.Siren_dn⟩,
    ⟨"rfc7191.EnumeratedErrorCode", Verif.Rfc7191.EnumeratedErrorCode, Std.Rfc7191.EnumeratedErrorCode⟩,
    ⟨"rfc7191.ErrorCodeChoice", Verif.Rfc7191.ErrorCodeChoice, Std.Rfc7191.ErrorCodeChoice⟩,
    ⟨"rfc7191.KeyPkgID", Verif.Rfc7191.KeyPkgID, Std.Rfc7191.KeyPkgID⟩,
    ⟨"rfc7191.KeyPkgIdentifier", Verif.Rfc7191.KeyPkgIdentifier, Std.Rfc7191.KeyPkgIdentifier⟩,
    ⟨"rfc7191.KeyPkgVersion", Verif.Rfc7191.KeyPkgVersion, Std.Rfc7191.KeyPkgVersion⟩,
    ⟨"rfc7191.KeyPackageError", Verif.Rfc7191.KeyPackageError, Std.Rfc7191.KeyPackageError⟩,
    ⟨"rfc7191.KeyPackageReceipt", Verif.Rfc7191.KeyPackageReceipt, Std.Rfc7191.KeyPackageReceipt⟩,
    ⟨"rfc7191.KeyPkgReceiptReq", Verif.Rfc7191.KeyPkgReceiptReq, Std.Rfc7191.KeyPkgReceiptReq⟩,
    ⟨"rfc7191.KeyPkgIdentifierAndReceiptReq", Verif.Rfc7191.KeyPkgIdentifierAndReceiptReq, Std.Rfc7191.KeyPkgIdentifierAndReceiptReq⟩]⟩

end Rfc7191
end Built
end Verif
