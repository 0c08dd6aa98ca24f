import Verif.Spec.Objects
import Verif.Asn1.Grade

/-!
# Checking the objects of a module
-/

namespace Verif
namespace Std

open Asn1

/-- The object is the one the entry of the dictionary stands for. -/
def Object.at (o : Object) (w : Ident × Val × Ty) : Bool := Nat.beq o.cls.map.idx w.1.idx && decide (o.key = w.2.1)

/-- The type entered relates to the type of the object as its grade says. -/
def Object.graded (o : Object) (t : Ty) : Bool :=
  match o.grade with
  | some g => g.holds t o.std
  | none => false

/-- The dictionary belongs to an object class. -/
def shared (m : Ident) : Bool := ObjClass.all.any (fun c => Nat.beq c.map.idx m.idx)

/-- Every entry the module makes is that of an object of its standard, and the objects with a grade have an entry; the types
are related as the grade says. -/
def Objects.ok (s : Objects) : Bool :=
  s.module.writes.all (fun w => !shared w.1 || s.unlisted.any (fun u => Nat.beq u.1.map.idx w.1.idx && decide (u.2 = w.2.1)) ||
    s.objects.any (fun o => o.at w && o.graded w.2.2)) &&
  s.objects.all (fun o => s.module.writes.any (fun w => o.at w && o.graded w.2.2) || (o.grade.isNone && s.module.writes.all (fun w => !o.at w)))

end Std
end Verif
