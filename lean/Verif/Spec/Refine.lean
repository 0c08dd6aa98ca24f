import Verif.Asn1.Open

/-!
# A result of decoding with open types that says more than another

`Refines v w`: the two are the same, except that in some open type fields `v` has octets where `w` has what these octets mean
under some type.  Stated on values, with the plain decoder for the contents.
-/

namespace Verif
namespace Asn1

mutual
inductive Refines : OVal → OVal → Prop
  | leaf (v : Val) : Refines (.leaf v) (.leaf v)
  | record (vs ws : OVals) : RefinesL vs ws → Refines (.record vs) (.record ws)
  | list (vs ws : OVals) : RefinesL vs ws → Refines (.list vs) (.list ws)
  | alt (i : Nat) (v w : OVal) : Refines v w → Refines (.alt i v) (.alt i w)
  | opened (u : Ty) (v w : OVal) : Refines v w → Refines (.opened u v) (.opened u w)
  /-- octets, and what they are decoded to; open types within them may be opened as well -/
  | found (u : Ty) (b rest : Bytes) (v : Val) (v' w : OVal) : decode u b = some (v, rest) → v'.plain? = some v → Refines v' w →
      Refines (.leaf (.octets b)) (.opened u w)
inductive RefinesL : OVals → OVals → Prop
  | nil : RefinesL .nil .nil
  | cons (v w : OVal) (vs ws : OVals) : Refines v w → RefinesL vs ws → RefinesL (.cons v vs) (.cons w ws)
end

/-! ## Results that say everything -/

/-- The contents of an open type field have been decoded. -/
def OVal.shown : OVal → Bool
  | .opened _ _ => true
  | .list ws => ws.toList.all (fun w => match w with
    | .opened _ _ => true
    | _ => false)
  | _ => false

mutual
/-- All open type fields that are there have been decoded, those within others too. -/
def OVal.entire : Ty → OVal → Bool
  | .seq _ _ cs, .record ws => ws.entireC cs
  | .of _ _ t, .list ws => ws.entireE t
  | .choice _ cs, .alt i w =>
    match cs.get? i with
    | some (_, t) => w.entire t
    | none => true
  | _, .opened u w => w.entire u
  | _, _ => true
def OVals.entireE (t : Ty) : OVals → Bool
  | .nil => true
  | .cons w ws => w.entire t && ws.entireE t
def OVals.entireC : Comps → OVals → Bool
  | .cons f t cs, .cons w ws => (f.openType.isNone || f.mode.isOpt && w.isAbsent || w.shown) && w.entire t && ws.entireC cs
  | _, _ => true
end

end Asn1
end Verif
