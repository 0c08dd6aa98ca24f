import Verif.Asn1.Assign
import Verif.Asn1.Build

/-!
# What an object of another class stands for in a component
-/

namespace Verif
namespace Asn1

mutual
/-- An object, of whatever class, stands for the value `v` of the type `t`: its tags are those of the type, its constraints are at
least as strict, and so on for its parts; or the type is a CHOICE without a tag and the object stands for a value of one of its
alternatives; or the type is ANY and the object is encoded to the value.  `ine`: the component is OPTIONAL. -/
inductive Stands : Bool → Ty → Made → Val → Prop
  | simple (ine : Bool) (k : Prim) (a a' : Attrs) (v : Val) (ht : a.tags = a'.tags)
      (hs : a.spec.ok (.simple v) = true → a'.spec.ok (.simple v) = true) : Stands ine (.prim k a') (.simple k a v) v
  | seq (ine isSet : Bool) (a a' : Attrs) (cs cs' : Comps) (ss : MadeSlots) (vs : Vals) (ht : a.tags = a'.tags)
      (hs : a.spec.ok (.mapping (ss.names cs).length (ss.names cs)) = true →
        a'.spec.ok (.mapping (presentNames cs' vs).length (presentNames cs' vs)) = true)
      (h : StandsSlots isSet cs' cs ss vs) : Stands ine (.seq isSet a' cs') (.seq isSet a cs ss) (.record vs)
  | of (ine isSet : Bool) (a a' : Attrs) (t t' : Ty) (os : MadeList) (vs : Vals) (ht : a.tags = a'.tags)
      (hs : a.spec.ok (.mapping vs.length []) = true → a'.spec.ok (.mapping vs.length []) = true)
      (h : StandsList ine t' os vs) : Stands ine (.of isSet a' t') (.of isSet a t os) (.list vs)
  | choice (ine : Bool) (a a' : Attrs) (cs cs' : Comps) (i j : Nat) (f : Field) (t : Ty) (o : Made) (v : Val) (ht : a.tags = a'.tags)
      (hj : cs'.get? j = some (f, t)) (h : Stands ine t o v) : Stands ine (.choice a' cs') (.choice a cs i o) (.alt j v)
  | alternative (ine : Bool) (a' : Attrs) (cs' : Comps) (j : Nat) (f : Field) (t : Ty) (o : Made) (v : Val) (ht : a'.tags = [])
      (hj : cs'.get? j = some (f, t)) (h : Stands ine t o v) : Stands ine (.choice a' cs') o (.alt j v)
  | any (ine : Bool) (a' : Attrs) (o : Made) (b : Bytes) (ht : a'.tags = []) (hs : a'.spec.truthy = false) (h : o.enc ine = some b) :
      Stands ine (.prim .any a') o (.octets b)
/-- Component by component; the OPTIONALs and DEFAULTs are the same. -/
inductive StandsSlots : Bool → Comps → Comps → MadeSlots → Vals → Prop
  | nil (isSet : Bool) : StandsSlots isSet .nil .nil .nil .nil
  | gap (isSet : Bool) (f f' : Field) (t t' : Ty) (cs cs' : Comps) (ss : MadeSlots) (v : Val) (vs : Vals) (hm : f.mode = f'.mode)
      (hv : f'.mode.missing = some v) (h : StandsSlots isSet cs' cs ss vs) :
      StandsSlots isSet (.cons f' t' cs') (.cons f t cs) (.gap ss) (.cons v vs)
  | rest (isSet : Bool) (f f' : Field) (t t' : Ty) (cs cs' : Comps) (v : Val) (vs : Vals) (hm : f.mode = f'.mode)
      (hv : f'.mode.missing = some v) (h : StandsSlots isSet cs' cs .nil vs) :
      StandsSlots isSet (.cons f' t' cs') (.cons f t cs) .nil (.cons v vs)
  | put (isSet : Bool) (f f' : Field) (t t' : Ty) (cs cs' : Comps) (o : Made) (ss : MadeSlots) (v : Val) (vs : Vals)
      (hm : f.mode = f'.mode) (ho : f.openType = none ∨ sameType t o.ty = true) (ha : v ≠ .absent)
      (hd : ∀ d, f.mode = .dflt d → o.value = v) (hk : isSet = true → o.key = setKey t' v)
      (hv : Stands f.mode.isOpt t' o v) (h : StandsSlots isSet cs' cs ss vs) :
      StandsSlots isSet (.cons f' t' cs') (.cons f t cs) (.put o ss) (.cons v vs)
  /-- An object in an open type field stands for its encoding. -/
  | opened (f f' : Field) (a a' : Attrs) (cs cs' : Comps) (o : Made) (ss : MadeSlots) (b : Bytes) (vs : Vals)
      (hm : f.mode = f'.mode) (ho : f.openType ≠ none) (hn : sameType (.prim .any a) o.ty = false) (ht : a.tags = a'.tags)
      (hs : a'.spec.truthy = false) (hd : ∀ d, f.mode ≠ .dflt d) (hb : o.enc f.mode.isOpt = some b)
      (h : StandsSlots false cs' cs ss vs) :
      StandsSlots false (.cons f' (.prim .any a') cs') (.cons f (.prim .any a) cs) (.put o ss) (.cons (.octets b) vs)
inductive StandsList : Bool → Ty → MadeList → Vals → Prop
  | nil (ine : Bool) (t : Ty) : StandsList ine t .nil .nil
  | cons (ine : Bool) (t : Ty) (o : Made) (os : MadeList) (v : Val) (vs : Vals) (hv : Stands ine t o v) (h : StandsList ine t os vs) :
      StandsList ine t (.cons o os) (.cons v vs)
end

mutual
/-- Every simple object holds a value of its kind that meets the constraint of its class, as is checked when it is made. -/
def Made.legal : Made → Bool
  | .simple k a v => primKind k v && a.spec.ok (.simple v)
  | .seq _ _ _ ss => ss.legal
  | .of _ _ _ os => os.legal
  | .choice _ _ _ o => o.legal
def MadeSlots.legal : MadeSlots → Bool
  | .nil => true
  | .gap ss => ss.legal
  | .put o ss => o.legal && ss.legal
def MadeList.legal : MadeList → Bool
  | .nil => true
  | .cons o os => o.legal && os.legal
end

end Asn1
end Verif
