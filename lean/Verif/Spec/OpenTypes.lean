import Verif.Asn1.Types
import Verif.Asn1.Open

/-!
# What the argument `openTypes` of the decoder should do

Stated on the entries of the caller's dictionary.
-/

namespace Verif
namespace Spec
namespace OpenTypes

open Asn1

/-- A field whose class names the dictionary `m` and whose governor has the value `k` is to hold a `u`: the caller's
dictionary decides, for all fields alike; where it has no entry, the dictionary of the class decides. -/
def Resolves (dict : List (Val × Ty)) (D : Registry) (m : Ident) (k : Val) (u : Ty) : Prop :=
  (k, u) ∈ dict ∨ ((∀ u', (k, u') ∉ dict) ∧ D m k = some u)

/-- `R` is this resolution. -/
def Resolution (dict : List (Val × Ty)) (D R : Registry) : Prop := ∀ m k u, R m k = some u ↔ Resolves dict D m k u

/-- `dict` has the entries of the dictionary `m`. -/
def CopyOf (D : Registry) (m : Ident) (dict : List (Val × Ty)) : Prop := ∀ k u, (k, u) ∈ dict ↔ D m k = some u

end OpenTypes
end Spec
end Verif
