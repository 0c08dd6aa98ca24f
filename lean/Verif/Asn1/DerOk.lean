import Verif.Asn1.Wf

/-!
# Types whose encodings follow the tagging and ordering rules of DER

Decidable; evaluated on every type of the package in `Verif/Props/Der.lean`.
-/

namespace Verif
namespace Asn1

/-- The sort keys that values of a SET component can have. -/
def Ty.keys : Ty → List TagSet
  | .choice a cs => if a.tags.isEmpty then cs.toList.map (fun c => c.2.tags) else [a.tags]
  | t => [t.tags]

/-- The outermost tag of the one is before that of the other. -/
def outerBefore (a b : TagSet) : Bool :=
  match a.getLast?, b.getLast? with
  | some x, some y => x.cls.bits < y.cls.bits || (x.cls.bits == y.cls.bits && x.num < y.num)
  | _, _ => false

/-- Comparing whole tag sets has the same result as comparing the outermost tags. -/
def sameOrder (a b : TagSet) : Bool :=
  (outerBefore a b && !tagsLe b a) || (outerBefore b a && !tagsLe a b)

/-- No component can be put at the wrong place. -/
def Comps.setOk : Comps → Bool
  | .nil => true
  | .cons _ t cs => t.keys.all (fun a => cs.toList.all (fun c => c.2.keys.all (sameOrder a))) && cs.setOk

mutual
/-- Tags of an ANY are constructed, and SET components are put in the right order. -/
def Ty.derOk : Ty → Bool
  | .prim k a => !(k == .any) || a.tags.all (·.constructed)
  | .seq isSet _ cs => cs.derOk && (!isSet || cs.setOk)
  | .of _ _ t => t.derOk
  | .choice _ cs => cs.derOk
  | .bad _ => true
def Comps.derOk : Comps → Bool
  | .nil => true
  | .cons _ t cs => t.derOk && cs.derOk
end

end Asn1
end Verif
