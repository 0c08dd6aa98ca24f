import Verif.Asn1.Codec

/-!
# Octets in which no component is written out that equals its default
-/

namespace Verif
namespace Asn1

mutual
/-- What `decT t` reads from `x` has no component that was written out and equals its default. -/
def Ty.strict : Ty → TLV → Prop
  | .seq isSet a cs, x => ∀ xs, innerItems a x = some xs → if isSet then cs.strictSet xs else cs.strictSeq xs
  | .of _ a t, x => ∀ xs, innerItems a x = some xs → ∀ y ∈ xs, t.strict y
  | .choice a cs, x =>
    match a.tags with
    | [] => cs.strictAlt x
    | _ :: _ => ∀ y z r, unwrap a.tags.reverse x = some y → readTLV y.content = some (z, r) → cs.strictAlt z
  | _, _ => True
def Comps.strictSeq : Comps → List TLV → Prop
  | .cons fld t cs, x :: xs =>
    if fld.mode.isReq || t.matches x || (t.anyLike && !cs.windowMatches x) then
      t.strict x ∧ (∀ v, decT t x = some v → fld.mode ≠ .dflt v) ∧ cs.strictSeq xs
    else cs.strictSeq (x :: xs)
  | _, _ => True
def Comps.strictSet : Comps → List TLV → Prop
  | .cons fld t cs, xs =>
    (∀ x ∈ xs, t.matches x = true → t.strict x ∧ ∀ v, decT t x = some v → fld.mode ≠ .dflt v) ∧ cs.strictSet xs
  | .nil, _ => True
def Comps.strictAlt : Comps → TLV → Prop
  | .cons _ t cs, x => if t.matches x then t.strict x else cs.strictAlt x
  | .nil, _ => True
end

end Asn1
end Verif
