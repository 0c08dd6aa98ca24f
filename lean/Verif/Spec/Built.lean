import Verif.Spec.Grade

/-!
# Describing the classes of the package in ASN.1

The modules under `Verif/Built` describe the classes that are not the types of their standards, in the notation
of `Verif/Spec/X680.lean` and the following, which ASN.1 does not have.
-/

namespace Verif
namespace Spec
namespace Built

open Asn1 X680

/-- One more tag, but a primitive one. -/
def primitive (c : Cls) (n : Nat) (t : Ty) : Ty := t.mapAttrs (fun a => { a with tags := a.tags ++ [⟨c, false, n⟩] })

/-- Another outermost tag, a constructed one. -/
def constructed (c : Cls) (n : Nat) (t : Ty) : Ty :=
  t.mapAttrs (fun a => { a with tags := a.tags.dropLast ++ [⟨c, true, n⟩] })

/-- Python's printable characters: from space to tilde, tab, line feed, carriage return, vertical tab, form
feed; without those of `s`. -/
def FROM_PRINTABLE_EXCEPT (s : String) : Constraint :=
  .alphabet (((List.range 95).map (fun n => Char.ofNat (n + 32)) ++
    ['\t', '\n', '\r', Char.ofNat 11, Char.ofNat 12]).filter (fun c => !s.toList.contains c))

end Built
end Spec

namespace Built

/-- A class of the package, and the type it implements. -/
structure Described where
  name : String
  obj : Py.Obj
  ty : Asn1.Ty

/-- A module, and its classes with the types they implement. -/
structure Description where
  module : Py.Module
  rows : List Described

end Built
end Verif
