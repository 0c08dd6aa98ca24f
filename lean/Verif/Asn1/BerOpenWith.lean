import Verif.Asn1.BerOpenTypes

/-!
# The options of the BER decoder that concern open types

As in Asn1/OpenTypes.lean: the code that looks at the options is the same for DER and BER (pyasn1 0.4.8, codec/ber/decoder.py,
`UniversalConstructedTypeDecoder.valueDecoder`, and once more in `indefLenValueDecoder`).
-/

namespace Verif
namespace Asn1
namespace BerOpen

/-- `ber.decoder.decode(b, asn1Spec=t, openTypes=..., decodeOpenTypes=...)`, `D` being the dictionaries of the classes. -/
def decodeWith (o : Options) (D : Registry) (t : Ty) (b : Bytes) : Option (OVal × Bytes) :=
  if !o.openTypes.isEmpty || o.decodeOpenTypes then odecode (o.registry D) (b.length + 1) t b
  else (berDecode t b).map (fun p => (OVal.ofVal p.1, p.2))

/-! ## Dictionaries that agree where they are used -/

theorem openAll_use {p : Ident → Bool} {D E : Registry} {f g : Ty → Bytes → Option OVal}
    (hD : ∀ m k, p m = true → D m k = E m k) (h : AgreeUse p D f g) (ind : Bool) (ds : Comps) (us : OVals) :
    ∀ (cs : Comps) (vs : OVals), cs.useOnly p = true → openAll D f ind ds us cs vs = openAll E g ind ds us cs vs
  | .cons fld t cs, .cons v vs, hs => by
    simp only [Comps.useOnly, Bool.and_eq_true] at hs
    have : openField D f ind ds us fld v = openField E g ind ds us fld v := by
      have hs := hs.1
      simp only [openField]
      split
      · rfl
      · rename_i ot ho
        simp only [ho] at hs
        split
        · rfl
        · split
          · rfl
          · rename_i k hk
            rw [← hD _ k hs]
            split
            · rfl
            · rename_i u hu
              rw [openVal_ext (fun c => h _ _ u c hs hu) v]
    simp only [openAll]
    rw [this, openAll_use hD h ind ds us cs vs hs.2]
  | .nil, _, _ => by simp [openAll]
  | .cons _ _ _, .nil, _ => by simp [openAll]

mutual
theorem odecT_use {p : Ident → Bool} {D E : Registry} {f g : Ty → Bytes → Option OVal}
    (hD : ∀ m k, p m = true → D m k = E m k) (h : AgreeUse p D f g) : ∀ (t : Ty) (x : Elt),
    t.each (Ty.useOnly p) = true → odecT D f t x = odecT E g t x
  | .prim k a, x, _ => by simp [odecT]
  | .seq s a cs, x, ho => by
    simp only [Ty.each, Ty.useOnly, Bool.and_eq_true] at ho
    simp only [odecT]
    split
    · rfl
    · rename_i xs hx
      rw [odecComps_use hD h cs xs ho.2, odecSet_use hD h cs xs ho.2]
      split
      · rfl
      · rename_i vs hvs
        rw [openAll_use hD h _ cs vs cs vs ho.1]
  | .of s a t, x, ho => by
    simp only [Ty.each, Bool.and_eq_true] at ho
    simp only [odecT]
    split
    · rfl
    · rename_i xs hx
      rw [mapOpt_congr xs (fun y _ => odecT_use hD h t y ho.2)]
  | .choice a cs, x, ho => by
    simp only [Ty.each, Bool.and_eq_true] at ho
    simp only [odecT]
    split
    · exact odecAlt_use hD h cs 0 x ho.2
    · split
      · rfl
      · split
        · rfl
        · exact odecAlt_use hD h cs 0 _ ho.2
  | .bad _, _, _ => by simp [odecT]
theorem odecComps_use {p : Ident → Bool} {D E : Registry} {f g : Ty → Bytes → Option OVal}
    (hD : ∀ m k, p m = true → D m k = E m k) (h : AgreeUse p D f g) : ∀ (cs : Comps)
    (xs : List Elt), cs.each (Ty.useOnly p) = true → odecComps D f cs xs = odecComps E g cs xs
  | .nil, [], _ => by simp [odecComps]
  | .nil, _ :: _, _ => by simp [odecComps]
  | .cons fld t cs, [], ho => by
    simp only [Comps.each, Bool.and_eq_true] at ho
    simp only [odecComps, odecComps_use hD h cs [] ho.2]
  | .cons fld t cs, x :: xs, ho => by
    simp only [Comps.each, Bool.and_eq_true] at ho
    simp only [odecComps, odecComps_use hD h cs (x :: xs) ho.2, odecT_use hD h t x ho.1, odecComps_use hD h cs xs ho.2]
theorem odecSet_use {p : Ident → Bool} {D E : Registry} {f g : Ty → Bytes → Option OVal}
    (hD : ∀ m k, p m = true → D m k = E m k) (h : AgreeUse p D f g) : ∀ (cs : Comps)
    (xs : List Elt), cs.each (Ty.useOnly p) = true → odecSet D f cs xs = odecSet E g cs xs
  | .nil, _, _ => by simp [odecSet]
  | .cons fld t cs, xs, ho => by
    simp only [Comps.each, Bool.and_eq_true] at ho
    simp only [odecSet, odecSet_use hD h cs xs ho.2]
    rw [mapOpt_congr (xs.filter (fun x => t.matches x.tlv)) (fun y _ => odecT_use hD h t y ho.1)]
theorem odecAlt_use {p : Ident → Bool} {D E : Registry} {f g : Ty → Bytes → Option OVal}
    (hD : ∀ m k, p m = true → D m k = E m k) (h : AgreeUse p D f g) : ∀ (cs : Comps)
    (k : Nat) (x : Elt), cs.each (Ty.useOnly p) = true → odecAlt D f cs k x = odecAlt E g cs k x
  | .nil, _, _, _ => by simp [odecAlt]
  | .cons fld t cs, k, x, ho => by
    simp only [Comps.each, Bool.and_eq_true] at ho
    simp only [odecAlt, odecAlt_use hD h cs (k + 1) x ho.2, odecT_use hD h t x ho.1]
end

/-- Only the dictionaries that the fields of the type use matter, and those that the fields of the types in them use, and
so on. -/
theorem odecode_use {p : Ident → Bool} {D E : Registry} (hD : ∀ m k, p m = true → D m k = E m k)
    (hc : ∀ m k u, p m = true → D m k = some u → u.each (Ty.useOnly p) = true) : ∀ (n : Nat) (t : Ty) (b : Bytes),
    t.each (Ty.useOnly p) = true → odecode D n t b = odecode E n t b
  | 0, _, _, _ => rfl
  | n + 1, t, b, ht => by
    simp only [odecode]
    split
    · rfl
    · rename_i x rest hx
      rw [odecT_use hD (g := fun u c => (odecode E n u c).map Prod.fst) ?_ t x ht]
      intro m k u c hm hu
      simp only
      rw [odecode_use hD hc n u c (hc m k u hm hu)]

end BerOpen
end Asn1
end Verif
