import Verif.Asn1.Codec

/-!
# What is it?

A file holds an object of one of several kinds, and does not say which.  The usual way to find out is to try the
classes one after the other:

    for name, spec in kinds:
        try:
            value, rest = decode(octets, asn1Spec=spec)
        except PyAsn1Error:
            continue
        return name, value, rest
-/

namespace Verif
namespace Kinds

open Asn1

/-- The first class that accepts the octets. -/
def recognise {α : Type} (dec : Ty → Bytes → Option (α × Bytes)) : List (String × Ty) → Bytes → Option (String × α × Bytes)
  | [], _ => none
  | k :: ks, b =>
    match dec k.2 b with
    | some (v, rest) => some (k.1, v, rest)
    | none => recognise dec ks b

end Kinds
end Verif
