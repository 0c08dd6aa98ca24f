import Verif.Spec.Path
import Verif.Spec.Pem
import Verif.Asn1.Codec
import Verif.Gen.Package

/-!
# What the dump scripts are for

Which class a PEM label, a PKCS#7 content type (RFC 2315, section 14) and a CMC layer (RFC 5652,
RFC 6402) stand for, written from the standards and from the usage messages of the scripts, not
from their code.
-/

namespace Verif
namespace Spec

open Asn1

/-- The line that opens a block. -/
def opening (label : String) : List Char := "-----BEGIN ".toList ++ label.toList ++ "-----".toList

/-- The line that closes it. -/
def closing (label : String) : List Char := "-----END ".toList ++ label.toList ++ "-----".toList

/-- A block: text before it, the label, the octets, the length of its lines (a multiple of four). -/
structure Armour where
  pre : List (List Char)
  label : String
  octets : List UInt8
  width : Nat

/-- As lines of text. -/
def Armour.lines (m : Armour) : List (List Char) :=
  m.pre ++ opening m.label :: wrap (4 * m.width) (base64 m.octets) ++ [closing m.label]

/-- The content types of RFC 2315: `{ iso(1) member-body(2) US(840) rsadsi(113549) pkcs(1) 7 n }`. -/
def pkcs7Types : List (List Nat × Ty) :=
  [([1, 2, 840, 113549, 1, 7, 1], Rfc2315.Data.call.ty), ([1, 2, 840, 113549, 1, 7, 2], Rfc2315.SignedData.call.ty),
   ([1, 2, 840, 113549, 1, 7, 3], Rfc2315.EnvelopedData.call.ty),
   ([1, 2, 840, 113549, 1, 7, 4], Rfc2315.SignedAndEnvelopedData.call.ty),
   ([1, 2, 840, 113549, 1, 7, 5], Rfc2315.DigestedData.call.ty), ([1, 2, 840, 113549, 1, 7, 6], Rfc2315.EncryptedData.call.ty)]

/-- `id-ct-contentInfo`, RFC 5652. -/
def ctContentInfo : List Nat := [1, 2, 840, 113549, 1, 9, 16, 1, 6]
/-- `id-signedData`, RFC 5652. -/
def ctSignedData : List Nat := [1, 2, 840, 113549, 1, 7, 2]
/-- `id-cct-PKIData`, RFC 6402. -/
def cctPKIData : List Nat := [1, 3, 6, 1, 5, 5, 7, 12, 2]

/-- The three content types in a CMC request. -/
def cmcTypes : List (List Nat) := [ctContentInfo, ctSignedData, cctPKIData]

/-- The octets are, exactly, what the package writes for the value, and it reads the value back. -/
def Exactly (t : Ty) (b : List UInt8) (v : Val) : Prop := decode t b = some (v, []) ∧ encode t v = some b

/-- The octets of a layer with the given content type lie directly within a layer with another one, of which the
value is `v`. -/
inductive Around : List Nat → List UInt8 → Val → List Nat → List UInt8 → Prop
  | info {b : List UInt8} {v : Val} {o : List Nat} {c : List UInt8} : Exactly Rfc5652.ContentInfo.call.ty b v →
      look [.field "contentType"] Rfc5652.ContentInfo.call.ty v = some (.oid o) →
      look [.field "content"] Rfc5652.ContentInfo.call.ty v = some (.octets c) → Around ctContentInfo b v o c
  | signed {b : List UInt8} {v : Val} {o : List Nat} {c : List UInt8} : Exactly Rfc5652.SignedData.call.ty b v →
      look [.field "encapContentInfo", .field "eContentType"] Rfc5652.SignedData.call.ty v = some (.oid o) →
      look [.field "encapContentInfo", .field "eContent"] Rfc5652.SignedData.call.ty v = some (.octets c) →
      Around ctSignedData b v o c

/-- All layers of a CMC request, from the outside to the request itself. -/
inductive Layers : List Nat → List UInt8 → List Val → Prop
  | inside {b : List UInt8} {v : Val} : Exactly Rfc6402.PKIData.call.ty b v → Layers cctPKIData b [v]
  | around {o : List Nat} {b : List UInt8} {v : Val} {o' : List Nat} {b' : List UInt8} {vs : List Val} :
      Around o b v o' b' → Layers o' b' vs → Layers o b (v :: vs)

/-- Layers around one of a content type other than these three. -/
inductive Strange : List Nat → List UInt8 → List Val → Prop
  | here {o : List Nat} {b : List UInt8} : o ∉ cmcTypes → Strange o b []
  | detached {b : List UInt8} {v : Val} {o : List Nat} : Exactly Rfc5652.SignedData.call.ty b v →
      look [.field "encapContentInfo", .field "eContentType"] Rfc5652.SignedData.call.ty v = some (.oid o) →
      look [.field "encapContentInfo", .field "eContent"] Rfc5652.SignedData.call.ty v = some .absent →
      o ∉ cmcTypes → Strange ctSignedData b [v]
  | around {o : List Nat} {b : List UInt8} {v : Val} {o' : List Nat} {b' : List UInt8} {vs : List Val} :
      Around o b v o' b' → Strange o' b' vs → Strange o b (v :: vs)

end Spec
end Verif
