import Verif.Spec.Compat

/-!
# When two types describe the same values in the same octets

`Ty.relaxes t s`: the type `t` is `s`, except that restrictions on values (sizes, ranges, permitted
values) may have been dropped or widened.  Names and open types are not compared, except where they decide
whether a restriction holds.
-/

namespace Verif
namespace Asn1

def Comps.names : Comps → List String
  | .nil => []
  | .cons f _ cs => f.name :: cs.names

def Comps.tagSets : Comps → List TagSet
  | .nil => []
  | .cons _ t cs => t.tags :: cs.tagSets

/-- Both types sort to the same place in a SET. -/
def Ty.sameKey (t s : Ty) : Bool :=
  t.tags == s.tags && match t, s with
  | .choice _ cs, .choice _ ds => cs.tagSets == ds.tagSets
  | _, _ => true

/-- The values that meet the constraint, where they are few. -/
def Constraint.listed : Constraint → Option (List Val)
  | .single (v :: vs) => some (v :: vs)
  | .range (.fin l) (.fin h) => if h - l ≤ 64 then some ((List.range (h - l + 1).toNat).map (fun (k : Nat) => .int (l + k))) else none
  | _ => none

/-- Each part of `d` follows from some part of `c`. -/
def Constraint.entails (c d : Constraint) : Bool :=
  d.conj.all (fun y => c.conj.any (fun x => x.within y || match x.listed with
    | some vs => vs.all (fun v => y.ok (.simple v))
    | none => false))

/-- What is known about a SEQUENCE or SET of the one kind holds for the other. -/
def relaxesRecord (a b : Attrs) (cs ds : Comps) : Bool :=
  a.spec.conj.isEmpty || b.spec.entails a.spec && cs.names == ds.names && (!cs.noOpen || ds.noOpen)

mutual
/-- `t` is `s` with restrictions on values dropped or widened. -/
def Ty.relaxes : Ty → Ty → Bool
  | .prim k a, .prim l b => k == l && a.tags == b.tags && b.spec.entails a.spec
  | .seq i a cs, .seq j b ds => i == j && a.tags.bare == b.tags.bare && relaxesRecord a b cs ds && cs.relaxes i ds
  | .of i a t, .of j b s => i == j && a.tags.bare == b.tags.bare && b.spec.entails a.spec && t.relaxes s
  | .choice a cs, .choice b ds => a.tags.bare == b.tags.bare && cs.relaxes false ds
  | _, _ => false
/-- Component by component; in a SET (`keys`) the order of the encodings is the same as well. -/
def Comps.relaxes (keys : Bool) : Comps → Comps → Bool
  | .nil, .nil => true
  | .cons f t cs, .cons g s ds => f.mode == g.mode && t.relaxes s && (!keys || t.sameKey s) && cs.relaxes keys ds
  | _, _ => false
end

/-- The two types have the same values in the same octets. -/
def Ty.agrees (t s : Ty) : Bool := t.relaxes s && s.relaxes t

mutual
/-- Same component names and same names for numbers, all the way down. -/
def Ty.sameNames : Ty → Ty → Bool
  | .prim _ a, .prim _ b => a.named == b.named
  | .seq _ _ cs, .seq _ _ ds => cs.sameNames ds
  | .of _ _ t, .of _ _ s => t.sameNames s
  | .choice _ cs, .choice _ ds => cs.sameNames ds
  | _, _ => false
def Comps.sameNames : Comps → Comps → Bool
  | .nil, .nil => true
  | .cons f t cs, .cons g s ds => f.name == g.name && t.sameNames s && cs.sameNames ds
  | _, _ => false
end

end Asn1
end Verif
