import Verif.Spec.Built
import Verif.Spec.Relax

/-!
# Checking descriptions
-/

namespace Verif
namespace Built

open Asn1

/-- The class is the type that describes it, and its components and numbers have the names given there. -/
def Described.exact (d : Described) : Bool := d.obj.call.ty.agrees d.ty && d.obj.call.ty.sameNames d.ty

/-- All classes of the module, in order, each the type that describes it. -/
structure Description.Ok (d : Description) : Prop where
  covers : d.rows.map (fun r => (r.name, r.obj)) = d.module.classes
  exact : d.rows.all Described.exact = true

end Built
end Verif
