import Verif.Asn1.Codec

/-!
# Well-formed schemas

The conditions under which the tag-driven decoder can tell the components of a
type apart.  They are decidable and evaluated on every type of the package in
`Verif/Props/Schema.lean`.
-/

namespace Verif
namespace Asn1

mutual
/-- Tags with which an encoding of the type can start. -/
def Ty.firsts : Ty → List (Cls × Nat)
  | .prim _ a => (a.tags.getLast?.map (fun t => (t.cls, t.num))).toList
  | .seq _ a _ => (a.tags.getLast?.map (fun t => (t.cls, t.num))).toList
  | .of _ a _ => (a.tags.getLast?.map (fun t => (t.cls, t.num))).toList
  | .choice a cs => match a.tags.getLast? with
    | some t => [(t.cls, t.num)]
    | none => cs.firsts
  | .bad _ => []
def Comps.firsts : Comps → List (Cls × Nat)
  | .nil => []
  | .cons _ t cs => t.firsts ++ cs.firsts
end

mutual
/-- An encoding of the type can start with any tag at all. -/
def Ty.anyFirst : Ty → Bool
  | .prim k a => k == .any && a.tags.isEmpty
  | .choice a cs => a.tags.isEmpty && cs.anyFirst
  | _ => false
def Comps.anyFirst : Comps → Bool
  | .nil => false
  | .cons _ t cs => t.anyFirst || cs.anyFirst
end

/-- No tag starts both an encoding of `t` and one of `u`. -/
def Ty.disjoint (t u : Ty) : Bool :=
  !t.anyFirst && !u.anyFirst && t.firsts.all (fun x => !u.firsts.contains x)

/-- Disjoint from every component. -/
def Ty.disjointAll (t : Ty) : Comps → Bool
  | .nil => true
  | .cons _ u cs => t.disjoint u && t.disjointAll cs

/-- Disjoint from the optional components that follow directly and from the
first mandatory one after them. -/
def Ty.disjointWindow (t : Ty) : Comps → Bool
  | .nil => true
  | .cons f u cs => t.disjoint u && (f.mode.isReq || t.disjointWindow cs)

/-- Every component is disjoint from the ones it could be confused with. -/
def Comps.seqOk : Comps → Bool
  | .nil => true
  | .cons f t cs => (f.mode.isReq || t.disjointWindow cs) && cs.seqOk

/-- All components pairwise disjoint. -/
def Comps.pairOk : Comps → Bool
  | .nil => true
  | .cons _ t cs => t.disjointAll cs && cs.pairOk

/-- Tag set of a primitive type: primitive base tag, constructed non-universal outer tags. -/
def primTags : TagSet → Bool
  | [] => false
  | t :: ts => !t.constructed && ts.all (fun u => u.constructed && u.cls != .universal)

/-- Tag set of a constructed type. -/
def consTags : TagSet → Bool
  | [] => false
  | _ :: ts => ts.all (fun u => u.cls != .universal)

mutual
/-- The type has a value that leaves no octets inside an OPTIONAL component. -/
def Ty.canVanish : Ty → Bool
  | .seq _ _ cs => cs.canVanish
  | .of _ a t => a.spec.ok (.mapping 0 []) || t.canVanish
  | .choice _ cs => cs.someVanish
  | _ => false
def Comps.canVanish : Comps → Bool
  | .nil => true
  | .cons f _ cs => !f.mode.isReq && cs.canVanish
def Comps.someVanish : Comps → Bool
  | .nil => false
  | .cons _ t cs => t.canVanish || cs.someVanish
end

/-- No OPTIONAL component has a value that vanishes. -/
def Comps.solid : Comps → Bool
  | .nil => true
  | .cons f t cs => (!f.mode.isOpt || !t.canVanish) && cs.solid

mutual
/-- Well-formed types. -/
def Ty.wf : Ty → Bool
  | .prim k a => if k == .any then a.tags.length ≤ 1 else primTags a.tags
  | .seq isSet a cs =>
    consTags a.tags && cs.wf && (if isSet then cs.pairOk && !cs.anyFirst else cs.seqOk)
      && (!a.spec.truthy || cs.solid)
  | .of _ a t => consTags a.tags && t.wf
  | .choice a cs => (a.tags.isEmpty || consTags a.tags) && cs.wf && cs.pairOk
  | .bad _ => false
def Comps.wf : Comps → Bool
  | .nil => true
  | .cons _ t cs => t.wf && cs.wf
end

mutual
/-- A size constraint met by some number of elements is met by any smaller
positive number. -/
def Constraint.shrinkOk : Constraint → Bool
  | .inter cs => cs.shrinkOk
  | .union cs => cs.shrinkOk
  | .size lo _ => lo.le (.fin 1)
  | _ => true
def Constraints.shrinkOk : Constraints → Bool
  | .nil => true
  | .cons c cs => c.shrinkOk && cs.shrinkOk
end

mutual
/-- No collection types inside; decoding gives back exactly the encoded value. -/
def Ty.rigid : Ty → Bool
  | .prim _ _ => true
  | .seq _ _ cs => cs.rigid && cs.solid
  | .of _ _ _ => false
  | .choice _ cs => cs.rigid
  | .bad _ => true
def Comps.rigid : Comps → Bool
  | .nil => true
  | .cons _ t cs => t.rigid && cs.rigid
end

mutual
/-- Decoded values encode again to the same octets. -/
def Ty.stable : Ty → Bool
  | .prim _ _ => true
  | .seq _ _ cs => cs.stable
  | .of _ a t => t.stable && (a.spec.shrinkOk || !t.canVanish)
  | .choice _ cs => cs.stable
  | .bad _ => true
def Comps.stable : Comps → Bool
  | .nil => true
  | .cons f t cs => t.stable && (match f.mode with
    | .dflt d => t.rigid || d == .absent
    | _ => true) && cs.stable
end

end Asn1
end Verif
