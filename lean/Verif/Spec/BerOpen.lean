import Verif.Asn1.BerCodec
import Verif.Spec.Open

/-!
# What decoding BER with open types should return

`Opens D t v w`: `w` is the value `v` of type `t` in which every open type field has been replaced by the decoding of its
octets under the registered type.  As in `Verif.Spec.Open`, on values, with the plain BER decoder for the contents; but a
field whose octets begin with the end-of-octets marker may be left as it is.
-/

namespace Verif
namespace Asn1
namespace BerOpen

mutual
inductive Opens (D : Registry) : Ty → Val → OVal → Prop
  | prim (k : Prim) (a : Attrs) (v : Val) : Opens D (.prim k a) v (.leaf v)
  | seq (s : Bool) (a : Attrs) (cs : Comps) (vs : Vals) (ws : OVals) :
      OpensC D cs vs cs vs ws → Opens D (.seq s a cs) (.record vs) (.record ws)
  | of (s : Bool) (a : Attrs) (t : Ty) (vs : Vals) (ws : OVals) :
      OpensE D t vs ws → Opens D (.of s a t) (.list vs) (.list ws)
  | choice (a : Attrs) (cs : Comps) (i : Nat) (f : Field) (t : Ty) (v : Val) (w : OVal) :
      cs.get? i = some (f, t) → Opens D t v w → Opens D (.choice a cs) (.alt i v) (.alt i w)
/-- The elements of a SEQUENCE OF or SET OF. -/
inductive OpensE (D : Registry) : Ty → Vals → OVals → Prop
  | nil (t : Ty) : OpensE D t .nil .nil
  | cons (t : Ty) (v : Val) (w : OVal) (vs : Vals) (ws : OVals) :
      Opens D t v w → OpensE D t vs ws → OpensE D t (.cons v vs) (.cons w ws)
/-- Some components of a SEQUENCE or SET whose components are `ds`/`us`. -/
inductive OpensC (D : Registry) : Comps → Vals → Comps → Vals → OVals → Prop
  | nil (ds : Comps) (us : Vals) : OpensC D ds us .nil .nil .nil
  | cons (ds : Comps) (us : Vals) (f : Field) (t : Ty) (cs : Comps) (v : Val) (vs : Vals) (w : OVal) (ws : OVals) :
      OpensF D ds us f t v w → OpensC D ds us cs vs ws → OpensC D ds us (.cons f t cs) (.cons v vs) (.cons w ws)
/-- One component. -/
inductive OpensF (D : Registry) : Comps → Vals → Field → Ty → Val → OVal → Prop
  /-- an absent optional component -/
  | absent (ds : Comps) (us : Vals) (f : Field) (t : Ty) : f.mode = .opt → OpensF D ds us f t .absent (.leaf .absent)
  /-- a component that takes its default value -/
  | dflt (ds : Comps) (us : Vals) (f : Field) (t : Ty) (v : Val) : f.mode = .dflt v →
      (∀ o g, f.openType = some o → fieldVal o.governor ds us = some g → D o.map g = none) →
      OpensF D ds us f t v (.leaf v)
  /-- a component that is not an open type -/
  | plain (ds : Comps) (us : Vals) (f : Field) (t : Ty) (v : Val) (w : OVal) : f.openType = none →
      Opens D t v w → OpensF D ds us f t v w
  /-- an open type whose governor is not registered -/
  | unknown (ds : Comps) (us : Vals) (f : Field) (t : Ty) (v : Val) (w : OVal) (o : OpenTy) (g : Val) :
      f.openType = some o → fieldVal o.governor ds us = some g → D o.map g = none →
      Opens D t v w → OpensF D ds us f t v w
  /-- an open type whose octets look like the end-of-octets marker -/
  | marker (ds : Comps) (us : Vals) (f : Field) (t : Ty) (b : Bytes) (o : OpenTy) (g : Val) :
      f.openType = some o → fieldVal o.governor ds us = some g → b.take 2 = [0, 0] →
      OpensF D ds us f t (.octets b) (.leaf (.octets b))
  /-- an open type whose governor is registered -/
  | known (ds : Comps) (us : Vals) (f : Field) (t : Ty) (v : Val) (w : OVal) (o : OpenTy) (g : Val) (u : Ty) :
      f.openType = some o → fieldVal o.governor ds us = some g → D o.map g = some u →
      OpensV D t u v w → OpensF D ds us f t v w
/-- The octets of an open type of type `t`, decoded as `u`. -/
inductive OpensV (D : Registry) : Ty → Ty → Val → OVal → Prop
  | one (t u : Ty) (b rest : Bytes) (v : Val) (w : OVal) : berDecode u b = some (v, rest) →
      Opens D u v w → OpensV D t u (.octets b) (.opened u w)
  | many (s : Bool) (a : Attrs) (t u : Ty) (vs : Vals) (ws : OVals) : OpensL D t u vs ws →
      OpensV D (.of s a t) u (.list vs) (.list ws)
/-- As `OpensV`, for the elements of a SET OF or SEQUENCE OF open types. -/
inductive OpensL (D : Registry) : Ty → Ty → Vals → OVals → Prop
  | nil (t u : Ty) : OpensL D t u .nil .nil
  | cons (t u : Ty) (b rest : Bytes) (v : Val) (w : OVal) (vs : Vals) (ws : OVals) :
      berDecode u b = some (v, rest) → Opens D u v w → OpensL D t u vs ws →
      OpensL D t u (.cons (.octets b) vs) (.cons (.opened u w) ws)
end

end BerOpen
end Asn1
end Verif
