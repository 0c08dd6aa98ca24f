import Verif.Spec.X680
import Verif.Py.Obj

/-!
# How a class of the package relates to a type of a standard
-/

namespace Verif
namespace Std

open Asn1

/-- `Type : value` where ANY is expected: the octets of the value. -/
def holding (t : Ty) (v : Val) : Val :=
  match encode t v with
  | some b => .octets b
  | none => .absent

inductive Grade where
  /-- Same values in the same octets. -/
  | same
  /-- As the standard's type, without some of its restrictions on values. -/
  | relaxed
  /-- Reads everything the standard's type reads. -/
  | widened
  /-- Reads everything the standard's type reads, but writes this value differently. -/
  | rewritten (v : Val)
  /-- Refuses these octets, which the standard's type reads. -/
  | refused (b : Bytes)
  /-- Reads these octets, but as another value. -/
  | changed (b : Bytes)

/-- A class of the package, the type of the standard it implements, and how they relate. -/
structure Entry where
  name : String
  obj : Py.Obj
  std : Ty
  grade : Grade
  /-- Names of components or numbers differ. -/
  renamed : Bool

/-- Types whose constraints count components that pyasn1 does not send when they are empty. -/
def vanishing : List String := ["rfc3739.SemanticsInformation"]

/-- A constant of the package, and the type and value the standard gives it. -/
structure Constant where
  name : String
  obj : Py.Obj
  std : Ty
  val : Val
  /-- Whether it is written as the standard's value is. -/
  agrees : Bool

/-- A module of the package beside the standard it implements. -/
structure Standard where
  module : Py.Module
  entries : List Entry
  /-- Classes the text of the standard does not define. -/
  beyond : List String
  constants : List Constant
  /-- Constants the text of the standard does not define. -/
  others : List String

end Std
end Verif
