import Verif.Spec.Asn1

/-! # Values without the empty collections that pyasn1 drops; values up to the order in SET OF -/

namespace Verif
namespace Asn1

mutual
/-- The value without the empty collections inside OPTIONAL components (`ine`: we are inside one). -/
def Ty.drop (ine : Bool) : Ty → Val → Val
  | .seq _ _ cs, .record vs => .record (cs.drop vs)
  | .of _ _ t, .list vs => .list (.ofList ((vs.toList.filter (fun u => !(ine && t.vanish u))).map (t.drop ine)))
  | .choice _ cs, .alt i v => .alt i (cs.dropAlt ine i v)
  | _, v => v
def Comps.drop : Comps → Vals → Vals
  | .cons f t cs, .cons v vs =>
    .cons (match f.mode with
      | .req => t.drop false v
      | .opt => if v = .absent ∨ t.vanish v = true then .absent else t.drop true v
      | .dflt d => if v = d then d else t.drop false v) (cs.drop vs)
  | _, vs => vs
def Comps.dropAlt (ine : Bool) : Comps → Nat → Val → Val
  | .cons _ t _, 0, v => t.drop ine v
  | .cons _ _ cs, i + 1, v => cs.dropAlt ine i v
  | .nil, _, v => v
end

mutual
/-- No OPTIONAL component holds an empty collection. -/
def Ty.kept (ine : Bool) : Ty → Val → Bool
  | .seq _ _ cs, .record vs => cs.kept vs
  | .of _ _ t, .list vs => vs.every (fun v => t.kept ine v && !(ine && t.vanish v))
  | .choice _ cs, .alt i v => cs.keptAlt ine i v
  | _, _ => true
def Comps.kept : Comps → Vals → Bool
  | .cons f t cs, .cons v vs =>
    (match f.mode with
     | .req => t.kept false v
     | .opt => v == .absent || (!t.vanish v && t.kept true v)
     | .dflt d => v == d || t.kept false v) && cs.kept vs
  | _, _ => true
def Comps.keptAlt (ine : Bool) : Comps → Nat → Val → Bool
  | .cons _ t _, 0, v => t.kept ine v
  | .cons _ _ cs, i + 1, v => cs.keptAlt ine i v
  | .nil, _, _ => true
end

mutual
/-- Equal up to the order of the elements of SET OFs. -/
def Ty.reorder : Ty → Val → Val → Prop
  | .prim _ _, v, w => v = w
  | .seq _ _ cs, .record vs, .record ws => cs.reorder vs ws
  | .of isSet _ t, .list vs, .list ws =>
    ∃ us : List Val, (if isSet then us.Perm vs.toList else us = vs.toList) ∧ all2 t.reorder us ws.toList
  | .choice _ cs, .alt i v, .alt j w => i = j ∧ cs.reorderAlt i v w
  | _, _, _ => False
def Comps.reorder : Comps → Vals → Vals → Prop
  | .nil, .nil, .nil => True
  | .cons f t cs, .cons v vs, .cons w ws =>
    (match f.mode with
     | .req => t.reorder v w
     | .opt => (v = .absent ∧ w = .absent) ∨ (v ≠ .absent ∧ t.reorder v w)
     | .dflt d => (v = d ∧ w = d) ∨ (v ≠ d ∧ t.reorder v w)) ∧ cs.reorder vs ws
  | _, _, _ => False
def Comps.reorderAlt : Comps → Nat → Val → Val → Prop
  | .cons _ t _, 0, v, w => t.reorder v w
  | .cons _ _ cs, i + 1, v, w => cs.reorderAlt i v w
  | .nil, _, _, _ => False
end

end Asn1
end Verif
