import Verif.Asn1.BasicRead

/-! # Whatever the DER decoder reads, the BER decoder reads as the same value -/

namespace Verif
namespace Asn1

/-- An element with definite length. -/
def Elt.of (x : TLV) : Elt := ⟨x, false⟩

theorem readElt_definite (b : Bytes) (x : TLV) (r : Bytes) (h : readTLV b = some (x, r)) : readElt b = some (Elt.of x, r) :=
  readE_definite b.length b x r h

theorem parseElts_definite : ∀ (fuel : Nat) (b : Bytes) (xs : List TLV), parseTLVs fuel b = some xs →
    parseElts fuel b = some (xs.map Elt.of)
  | fuel, [], xs, h => by
    simp only [parseTLVs, Option.some.injEq] at h
    subst h
    cases fuel <;> rfl
  | 0, _ :: _, xs, h => by simp [parseTLVs] at h
  | fuel + 1, b :: bs, xs, h => by
    simp only [parseTLVs] at h
    cases h1 : readTLV (b :: bs) with
    | none => simp [h1] at h
    | some p =>
      obtain ⟨x, r⟩ := p
      simp only [h1] at h
      cases h2 : parseTLVs fuel r with
      | none => simp [h2] at h
      | some ys =>
        simp only [h2, Option.some.injEq] at h
        subst h
        simp only [parseElts, readElt_definite _ _ _ h1, parseElts_definite fuel r ys h2, List.map_cons]

theorem elts_definite (b : Bytes) (xs : List TLV) (h : items b = some xs) : elts b = some (xs.map Elt.of) :=
  parseElts_definite _ b xs h

theorem unwrapE_definite : ∀ (us : List Tag) (x y : TLV), unwrap us x = some y → unwrapE us (Elt.of x) = some (Elt.of y)
  | [], _, _, h => by simp [unwrap] at h
  | [t], x, y, h => by
    simp only [unwrap] at h
    split at h
    · rename_i hx
      cases h
      show (if x.has t = true then some (Elt.of x) else none) = _
      rw [if_pos hx]
    · cases h
  | t :: t' :: ts, x, y, h => by
    simp only [unwrap] at h
    split at h
    · rename_i hx
      cases h1 : readTLV x.content with
      | none => simp [h1] at h
      | some p =>
        obtain ⟨z, r⟩ := p
        simp only [h1] at h
        have ih := unwrapE_definite (t' :: ts) z y h
        simp only [unwrapE, Elt.of, if_pos hx, Elt.inner, Bool.false_eq_true, if_false, readElt_definite _ _ _ h1, Option.map_some]
        exact ih
    · cases h

theorem bdecPrim_extends (k : Prim) (c : Bytes) (v : Val) (h : decPrim k c = some v) : bdecPrim k c = some v := by
  by_cases hk : k = .boolean
  · subst hk
    simp only [decPrim] at h
    simp only [bdecPrim]
    split at h
    · rename_i hc
      subst hc
      cases h
      decide
    · split at h
      · rename_i hc
        subst hc
        cases h
        decide
      · cases h
  · rw [bdecPrim_plain k c hk, h]

theorem bdecPrimT_extends (k : Prim) (a : Attrs) (x : TLV) (v : Val) (h : decPrimT k a x = some v) : bdecPrimT k a (Elt.of x) = some v := by
  by_cases hk : k = .any
  · subst hk
    simp only [bdecPrimT, beq_self_eq_true, if_true, Elt.of, Bool.false_eq_true, if_false]
    exact h
  · have hkb : (k == Prim.any) = false := by simpa using hk
    simp only [decPrimT, hkb, Bool.false_eq_true, if_false] at h
    simp only [bdecPrimT, hkb, Bool.false_eq_true, if_false]
    cases h1 : unwrap a.tags.reverse x with
    | none => simp [h1] at h
    | some y =>
      simp only [h1] at h
      simp only [unwrapE_definite _ _ _ h1]
      split at h
      · cases h
      · rename_i hc
        cases h2 : decPrim k y.content with
        | none => simp [h2] at h
        | some w =>
          simp only [h2] at h
          simp only [Elt.of, Bool.false_or, hc, Bool.false_eq_true, if_false, bdecPrim_extends _ _ _ h2]
          exact h

theorem innerElts_definite (a : Attrs) (x : TLV) (xs : List TLV) (h : innerItems a x = some xs) :
    innerElts a (Elt.of x) = some (xs.map Elt.of) := by
  simp only [innerItems] at h
  cases h1 : unwrap a.tags.reverse x with
  | none => simp [h1] at h
  | some y =>
    simp only [h1] at h
    simp only [innerElts, unwrapE_definite _ _ _ h1]
    split at h
    · rename_i hc
      simp only [Elt.of, hc, if_true]
      exact elts_definite _ _ h
    · cases h

theorem mapOpt_elts (f : TLV → Option Val) (g : Elt → Option Val) (hfg : ∀ x v, f x = some v → g (Elt.of x) = some v) :
    ∀ (xs : List TLV) (vs : List Val), mapOpt f xs = some vs → mapOpt g (xs.map Elt.of) = some vs
  | [], vs, h => by simpa [mapOpt] using h
  | x :: xs, vs, h => by
    simp only [mapOpt] at h
    split at h
    · rename_i v ws h1 h2
      simp only [List.map_cons, mapOpt, hfg x v h1, mapOpt_elts f g hfg xs ws h2]
      exact h
    · cases h

mutual
theorem bdecT_extends : ∀ (t : Ty) (x : TLV) (v : Val), decT t x = some v → bdecT t (Elt.of x) = some v
  | .prim k a, x, v, h => by
    simp only [decT] at h
    simp only [bdecT]
    exact bdecPrimT_extends k a x v h
  | .seq s a cs, x, v, h => by
    simp only [decT] at h
    simp only [bdecT]
    cases h1 : innerItems a x with
    | none => simp [h1] at h
    | some xs =>
      simp only [h1] at h
      simp only [innerElts_definite _ _ _ h1]
      cases s with
      | true =>
        simp only [if_true] at h ⊢
        by_cases h2 : xs.all cs.matches = true
        · simp only [h2, if_true] at h
          have h2' : (xs.map Elt.of).all (fun x => cs.matches x.tlv) = true := by
            rw [List.all_map]; exact h2
          simp only [h2', if_true]
          cases h3 : decSet cs xs with
          | none => simp [h3] at h
          | some vs =>
            simp only [h3] at h
            simp only [bdecSet_extends cs xs vs h3]
            exact h
        · simp [h2] at h
      | false =>
        simp only [Bool.false_eq_true, if_false] at h ⊢
        cases h3 : decComps cs xs with
        | none => simp [h3] at h
        | some vs =>
          simp only [h3] at h
          simp only [bdecComps_extends cs xs vs h3]
          exact h
  | .of s a t, x, v, h => by
    simp only [decT] at h
    simp only [bdecT]
    cases h1 : innerItems a x with
    | none => simp [h1] at h
    | some xs =>
      simp only [h1] at h
      simp only [innerElts_definite _ _ _ h1]
      cases h2 : mapOpt (decT t) xs with
      | none => simp [h2] at h
      | some vs =>
        simp only [h2] at h
        simp only [mapOpt_elts _ _ (bdecT_extends t) xs vs h2]
        exact h
  | .choice a cs, x, v, h => by
    simp only [decT] at h
    simp only [bdecT]
    cases hts : a.tags with
    | nil =>
      simp only [hts] at h ⊢
      exact bdecAlt_extends cs 0 x v h
    | cons t ts =>
      simp only [hts] at h ⊢
      cases h1 : unwrap (t :: ts).reverse x with
      | none => simp only [h1] at h; cases h
      | some y =>
        simp only [h1] at h
        simp only [unwrapE_definite _ _ _ h1]
        cases h2 : readTLV y.content with
        | none => simp [h2] at h
        | some p =>
          obtain ⟨z, r⟩ := p
          simp only [h2] at h
          simp only [Elt.inner, Elt.of, Bool.false_eq_true, if_false, readElt_definite _ _ _ h2, Option.map_some]
          exact bdecAlt_extends cs 0 z v h
  | .bad _, _, _, h => by simp [decT] at h
theorem bdecComps_extends : ∀ (cs : Comps) (xs : List TLV) (vs : Vals), decComps cs xs = some vs → bdecComps cs (xs.map Elt.of) = some vs
  | .nil, [], vs, h => by
    simp only [decComps] at h
    simp only [List.map_nil, bdecComps]
    exact h
  | .nil, _ :: _, _, h => by simp [decComps] at h
  | .cons f t cs, [], vs, h => by
    simp only [decComps] at h
    simp only [List.map_nil, bdecComps]
    split at h
    · rename_i v ws h1 h2
      have := bdecComps_extends cs [] ws h2
      simp only [List.map_nil] at this
      simp only [h1, this]
      exact h
    · cases h
  | .cons f t cs, x :: xs, vs, h => by
    simp only [decComps] at h
    simp only [List.map_cons, bdecComps, Elt.of]
    split at h
    · rename_i hc
      rw [if_pos hc]
      split at h
      · rename_i v ws h1 h2
        have g1 := bdecT_extends t x v h1
        have g2 := bdecComps_extends cs xs ws h2
        simp only [Elt.of] at g1
        simp only [g1, g2]
        exact h
      · cases h
    · rename_i hc
      rw [if_neg hc]
      split at h
      · rename_i v ws h1 h2
        have := bdecComps_extends cs (x :: xs) ws h2
        simp only [List.map_cons, Elt.of] at this
        simp only [h1]
        show (match some v, bdecComps cs (⟨x, false⟩ :: xs.map Elt.of) with
          | some v, some vs => some (Vals.cons v vs)
          | _, _ => none) = _
        have h4 : bdecComps cs (⟨x, false⟩ :: xs.map Elt.of) = some ws := this
        simp only [h4]
        exact h
      · cases h
theorem bdecSet_extends : ∀ (cs : Comps) (xs : List TLV) (vs : Vals), decSet cs xs = some vs → bdecSet cs (xs.map Elt.of) = some vs
  | .nil, xs, vs, h => by
    simp only [decSet] at h
    simp only [bdecSet]
    exact h
  | .cons f t cs, xs, vs, h => by
    simp only [decSet] at h
    simp only [bdecSet]
    have hf : (xs.map Elt.of).filter (fun x => t.matches x.tlv) = (xs.filter t.matches).map Elt.of := by
      rw [List.filter_map]; rfl
    rw [hf]
    cases h1 : mapOpt (decT t) (xs.filter t.matches) with
    | none => simp [h1] at h
    | some ws =>
      cases h2 : decSet cs xs with
      | none => simp [h1, h2] at h
      | some us =>
        simp only [h1, h2] at h
        simp only [mapOpt_elts _ _ (bdecT_extends t) _ ws h1, bdecSet_extends cs xs us h2]
        exact h
theorem bdecAlt_extends : ∀ (cs : Comps) (i : Nat) (x : TLV) (v : Val), decAlt cs i x = some v → bdecAlt cs i (Elt.of x) = some v
  | .nil, _, _, _, h => by simp [decAlt] at h
  | .cons f t cs, i, x, v, h => by
    simp only [decAlt] at h
    simp only [bdecAlt]
    split at h
    · rename_i hm
      have hm' : t.matches (Elt.of x).tlv = true := hm
      rw [if_pos hm']
      cases h1 : decT t x with
      | none => simp [h1] at h
      | some w =>
        simp only [h1] at h
        simp only [bdecT_extends t x w h1]
        exact h
    · rename_i hm
      have hm' : ¬ t.matches (Elt.of x).tlv = true := hm
      rw [if_neg hm']
      exact bdecAlt_extends cs (i + 1) x v h
end

/-- The BER decoder reads everything the DER decoder reads, as the same value and with the same rest. -/
theorem berDecode_extends (t : Ty) (b : Bytes) (v : Val) (rest : Bytes) (h : decode t b = some (v, rest)) :
    berDecode t b = some (v, rest) := by
  simp only [decode] at h
  cases h1 : readTLV b with
  | none => simp [h1] at h
  | some p =>
    obtain ⟨x, r⟩ := p
    simp only [h1] at h
    cases h2 : decT t x with
    | none => simp [h2] at h
    | some w =>
      simp only [h2] at h
      simp only [berDecode, readElt_definite _ _ _ h1, bdecT_extends t x w h2]
      exact h

end Asn1
end Verif
