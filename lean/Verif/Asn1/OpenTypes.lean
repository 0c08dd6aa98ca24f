import Verif.Asn1.OpenFuel
import Verif.Asn1.OpenComplete

/-!
# The options of the decoder that concern open types

`decode(b, asn1Spec=t, openTypes={...}, decodeOpenTypes=...)`, as /repo's tests call it (for example
tests/test_rfc5280.py:111-114) and as the comment at pyasn1_modules/rfc6664.py:124-132 recommends.  Modelled after
pyasn1 0.4.8, codec/ber/decoder.py, `UniversalConstructedTypeDecoder.valueDecoder`:

    openTypes = options.get('openTypes', {})
    if openTypes or options.get('decodeOpenTypes', False):
        for idx, namedType in enumerate(namedTypes.namedTypes):
            ...
            try:
                openType = openTypes[governingValue]
            except KeyError:
                try:
                    openType = namedType.openType[governingValue]
                except KeyError:
                    continue

The options are passed on to the decoding of the contents.
-/

namespace Verif
namespace Asn1

/-- The options of a call. -/
structure Options where
  /-- the dictionary `openTypes`, with its entries in any order -/
  openTypes : List (Val × Ty) := []
  decodeOpenTypes : Bool := false

/-- `openTypes[k]`. -/
def Options.find (o : Options) (k : Val) : Option Ty := (o.openTypes.find? (fun e => decide (e.1 = k))).map Prod.snd

/-- What the two nested `try` find. -/
def Options.registry (o : Options) (D : Registry) : Registry := fun m k =>
  match o.find k with
  | some u => some u
  | none => D m k

mutual
/-- A value none of whose fields is opened. -/
def OVal.ofVal : Val → OVal
  | .record vs => .record (OVals.ofVals vs)
  | .list vs => .list (OVals.ofVals vs)
  | .alt i v => .alt i (OVal.ofVal v)
  | v => .leaf v
def OVals.ofVals : Vals → OVals
  | .nil => .nil
  | .cons v vs => .cons (OVal.ofVal v) (OVals.ofVals vs)
end

/-- `decode(b, asn1Spec=t, openTypes=..., decodeOpenTypes=...)`, `D` being the dictionaries of the classes. -/
def decodeWith (o : Options) (D : Registry) (t : Ty) (b : Bytes) : Option (OVal × Bytes) :=
  if !o.openTypes.isEmpty || o.decodeOpenTypes then odecode (o.registry D) (b.length + 1) t b
  else (decode t b).map (fun p => (OVal.ofVal p.1, p.2))

mutual
theorem OVal.plain_ofVal : ∀ v : Val, (OVal.ofVal v).plain? = some v
  | .record vs => by simp [OVal.ofVal, OVal.plain?, OVals.plain_ofVals vs]
  | .list vs => by simp [OVal.ofVal, OVal.plain?, OVals.plain_ofVals vs]
  | .alt i v => by simp [OVal.ofVal, OVal.plain?, OVal.plain_ofVal v]
  | .absent => rfl
  | .bits _ => rfl
  | .str _ => rfl
  | .int _ => rfl
  | .octets _ => rfl
  | .oid _ => rfl
  | .null => rfl
theorem OVals.plain_ofVals : ∀ vs : Vals, (OVals.ofVals vs).plain? = some vs
  | .nil => rfl
  | .cons v vs => by simp [OVals.ofVals, OVals.plain?, OVal.plain_ofVal v, OVals.plain_ofVals vs]
end

/-! ## Two registries that agree on the dictionaries in use -/

/-- All open type fields use dictionaries that satisfy `p`. -/
def Comps.useOnly (p : Ident → Bool) : Comps → Bool
  | .nil => true
  | .cons f _ cs => (match f.openType with
    | none => true
    | some o => p o.map) && cs.useOnly p

def Ty.useOnly (p : Ident → Bool) : Ty → Bool
  | .seq _ _ cs => cs.useOnly p
  | _ => true

/-- `f` and `g` agree on what the dictionaries in use contain. -/
def AgreeUse (p : Ident → Bool) (D : Registry) (f g : Ty → Bytes → Option OVal) : Prop :=
  ∀ m k u c, p m = true → D m k = some u → f u c = g u c

theorem openVal_ext {f g : Ty → Bytes → Option OVal} {u : Ty} (h : ∀ c, f u c = g u c) (w : OVal) :
    openVal f u w = openVal g u w := by
  have h1 : ∀ x, openOne f u x = openOne g u x := by
    intro x
    unfold openOne
    split
    · rw [h]
    · rfl
  cases w with
  | list vs => simp only [openVal]; rw [mapOpt_congr _ (fun x _ => h1 x)]
  | leaf v => exact h1 _
  | record vs => rfl
  | alt i v => rfl
  | opened t v => rfl

theorem openAll_use {p : Ident → Bool} {D E : Registry} {f g : Ty → Bytes → Option OVal}
    (hD : ∀ m k, p m = true → D m k = E m k) (h : AgreeUse p D f g) (ds : Comps) (us : OVals) :
    ∀ (cs : Comps) (vs : OVals), cs.useOnly p = true → openAll D f ds us cs vs = openAll E g ds us cs vs
  | .cons fld t cs, .cons v vs, hs => by
    simp only [Comps.useOnly, Bool.and_eq_true] at hs
    have : openField D f ds us fld v = openField E g ds us fld v := by
      have hs := hs.1
      simp only [openField]
      split
      · rfl
      · rename_i ot ho
        simp only [ho] at hs
        split
        · rfl
        · split
          · rfl
          · rename_i k hk
            rw [← hD _ k hs]
            split
            · rfl
            · rename_i u hu
              exact openVal_ext (fun c => h _ _ u c hs hu) v
    simp only [openAll]
    rw [this, openAll_use hD h ds us cs vs hs.2]
  | .nil, _, _ => by simp [openAll]
  | .cons _ _ _, .nil, _ => by simp [openAll]

mutual
theorem odecT_use {p : Ident → Bool} {D E : Registry} {f g : Ty → Bytes → Option OVal}
    (hD : ∀ m k, p m = true → D m k = E m k) (h : AgreeUse p D f g) : ∀ (t : Ty) (x : TLV),
    t.each (Ty.useOnly p) = true → odecT D f t x = odecT E g t x
  | .prim k a, x, _ => by simp [odecT]
  | .seq s a cs, x, ho => by
    simp only [Ty.each, Ty.useOnly, Bool.and_eq_true] at ho
    simp only [odecT]
    split
    · rfl
    · rename_i xs hx
      rw [odecComps_use hD h cs xs ho.2, odecSet_use hD h cs xs ho.2]
      split
      · rfl
      · rename_i vs hvs
        rw [openAll_use hD h cs vs cs vs ho.1]
  | .of s a t, x, ho => by
    simp only [Ty.each, Bool.and_eq_true] at ho
    simp only [odecT]
    split
    · rfl
    · rename_i xs hx
      rw [mapOpt_congr xs (fun y _ => odecT_use hD h t y ho.2)]
  | .choice a cs, x, ho => by
    simp only [Ty.each, Bool.and_eq_true] at ho
    simp only [odecT]
    split
    · exact odecAlt_use hD h cs 0 x ho.2
    · split
      · rfl
      · split
        · rfl
        · exact odecAlt_use hD h cs 0 _ ho.2
  | .bad _, _, _ => by simp [odecT]
theorem odecComps_use {p : Ident → Bool} {D E : Registry} {f g : Ty → Bytes → Option OVal}
    (hD : ∀ m k, p m = true → D m k = E m k) (h : AgreeUse p D f g) : ∀ (cs : Comps)
    (xs : List TLV), cs.each (Ty.useOnly p) = true → odecComps D f cs xs = odecComps E g cs xs
  | .nil, [], _ => by simp [odecComps]
  | .nil, _ :: _, _ => by simp [odecComps]
  | .cons fld t cs, [], ho => by
    simp only [Comps.each, Bool.and_eq_true] at ho
    simp only [odecComps, odecComps_use hD h cs [] ho.2]
  | .cons fld t cs, x :: xs, ho => by
    simp only [Comps.each, Bool.and_eq_true] at ho
    simp only [odecComps, odecComps_use hD h cs (x :: xs) ho.2, odecT_use hD h t x ho.1, odecComps_use hD h cs xs ho.2]
theorem odecSet_use {p : Ident → Bool} {D E : Registry} {f g : Ty → Bytes → Option OVal}
    (hD : ∀ m k, p m = true → D m k = E m k) (h : AgreeUse p D f g) : ∀ (cs : Comps)
    (xs : List TLV), cs.each (Ty.useOnly p) = true → odecSet D f cs xs = odecSet E g cs xs
  | .nil, _, _ => by simp [odecSet]
  | .cons fld t cs, xs, ho => by
    simp only [Comps.each, Bool.and_eq_true] at ho
    simp only [odecSet, odecSet_use hD h cs xs ho.2]
    rw [mapOpt_congr (xs.filter t.matches) (fun y _ => odecT_use hD h t y ho.1)]
theorem odecAlt_use {p : Ident → Bool} {D E : Registry} {f g : Ty → Bytes → Option OVal}
    (hD : ∀ m k, p m = true → D m k = E m k) (h : AgreeUse p D f g) : ∀ (cs : Comps)
    (k : Nat) (x : TLV), cs.each (Ty.useOnly p) = true → odecAlt D f cs k x = odecAlt E g cs k x
  | .nil, _, _, _ => by simp [odecAlt]
  | .cons fld t cs, k, x, ho => by
    simp only [Comps.each, Bool.and_eq_true] at ho
    simp only [odecAlt, odecAlt_use hD h cs (k + 1) x ho.2, odecT_use hD h t x ho.1]
end

/-- Only the dictionaries that the fields of the type use matter, and those that the fields of the types in them use, and
so on. -/
theorem odecode_use {p : Ident → Bool} {D E : Registry} (hD : ∀ m k, p m = true → D m k = E m k)
    (hc : ∀ m k u, p m = true → D m k = some u → u.each (Ty.useOnly p) = true) : ∀ (n : Nat) (t : Ty) (b : Bytes),
    t.each (Ty.useOnly p) = true → odecode D n t b = odecode E n t b
  | 0, _, _, _ => rfl
  | n + 1, t, b, ht => by
    simp only [odecode]
    split
    · rfl
    · rename_i x rest hx
      rw [odecT_use hD (g := fun u c => (odecode E n u c).map Prod.fst) ?_ t x ht]
      intro m k u c hm hu
      simp only
      rw [odecode_use hD hc n u c (hc m k u hm hu)]

/-! ## When it succeeds -/

/-- Some depth of nesting suffices. -/
def opensAt (D : Registry) (t : Ty) (b : Bytes) : Prop := ∃ n, odecode D n t b ≠ none

theorem opensAt_iff {D : Registry} (hD : D.openOk) {t : Ty} (ht : t.each Ty.openOk = true) {b : Bytes} :
    opensAt D t b ↔ odecode D (b.length + 1) t b ≠ none := by
  constructor
  · rintro ⟨n, h⟩ hd
    obtain ⟨q, hq⟩ := Option.ne_none_iff_exists'.1 h
    have h1 := odecode_mono D n (max n (b.length + 1)) (Nat.le_max_left _ _) t b q hq
    rw [odecode_fuel hD b.length t b _ (b.length + 1) ht (Nat.le_refl _)
      (Nat.lt_of_lt_of_le (Nat.lt_succ_self _) (Nat.le_max_right _ _)) (Nat.lt_succ_self _), hd] at h1
    simp at h1
  · intro h
    exact ⟨_, h⟩

theorem opensAt_all {D : Registry} : ∀ (l : List (Ty × Bytes)), (∀ p ∈ l, opensAt D p.1 p.2) →
    ∃ n, ∀ p ∈ l, odecode D n p.1 p.2 ≠ none
  | [], _ => ⟨0, by simp⟩
  | p :: l, h => by
    obtain ⟨n, hn⟩ := opensAt_all l (fun q hq => h q (List.mem_cons_of_mem _ hq))
    obtain ⟨m, hm⟩ := h p (List.mem_cons_self ..)
    have up : ∀ (q : Ty × Bytes) (k : Nat), k ≤ max m n → odecode D k q.1 q.2 ≠ none → odecode D (max m n) q.1 q.2 ≠ none := by
      intro q k hk hq
      obtain ⟨x, hx⟩ := Option.ne_none_iff_exists'.1 hq
      rw [odecode_mono D k _ hk q.1 q.2 x hx]
      simp
    refine ⟨max m n, fun q hq => ?_⟩
    rcases List.mem_cons.1 hq with rfl | hq
    · exact up _ m (Nat.le_max_left _ _) hm
    · exact up _ n (Nat.le_max_right _ _) (hn q hq)

/-- If the plain decoder succeeds and the contents of all resolved fields can be decoded, so can the whole. -/
theorem odecode_complete {D : Registry} (hD : D.openOk) {t : Ty} (ht : t.each Ty.openOk = true) (hg : t.each Ty.governed = true)
    (b r : Bytes) (v : Val) (h : decode t b = some (v, r))
    (hf : ∀ p ∈ t.contents D v, odecode D (p.2.length + 1) p.1 p.2 ≠ none) :
    ∃ w, odecode D (b.length + 1) t b = some (w, r) := by
  obtain ⟨n, hn⟩ := opensAt_all (t.contents D v) (fun p hp => ⟨_, hf p hp⟩)
  have key : opensAt D t b := by
    refine ⟨n + 1, ?_⟩
    simp only [decode] at h
    simp only [odecode]
    split at h
    · simp at h
    · rename_i x rest hx
      split at h
      · simp at h
      · rename_i v' hv'
        simp only [Option.some.injEq, Prod.mk.injEq] at h
        obtain ⟨rfl, rfl⟩ := h
        have hr : Right D (fun u c => (odecode D n u c).map Prod.fst) := by
          intro u e w hw
          cases ho : odecode D n u e with
          | none => simp [ho] at hw
          | some p =>
            obtain ⟨w', r'⟩ := p
            simp only [ho, Option.map_some, Option.some.injEq] at hw
            subst hw
            obtain ⟨v', hv', ho'⟩ := odecode_sound D n u e w' r' ho
            exact ⟨v', r', hv', ho'⟩
        obtain ⟨w, hw⟩ := odecT_complete hr t x v' hg hv' (fun p hp => by
          have := hn p hp
          intro he
          rw [Option.map_eq_none_iff] at he
          exact this he)
        simp only [hx, hw]
        simp
  obtain ⟨p, hp⟩ := Option.ne_none_iff_exists'.1 ((opensAt_iff hD ht).1 key)
  obtain ⟨w, r'⟩ := p
  obtain ⟨v', hv', _⟩ := odecode_sound D _ t b w r' hp
  rw [h] at hv'
  simp only [Option.some.injEq, Prod.mk.injEq] at hv'
  exact ⟨w, by rw [hp, hv'.2]⟩

end Asn1
end Verif
