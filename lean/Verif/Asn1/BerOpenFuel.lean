import Verif.Asn1.BerOpenSound
import Verif.Asn1.OpenFuel
import Verif.Asn1.BasicDer
import Verif.Asn1.BasicSize

/-!
# Open types with the BER decoder: more fuel, and what the DER decoder accepts

More fuel does not change a result of `BerOpen.odecode`, and the length of the input is fuel enough.  What the DER decoder accepts with
`decodeOpenTypes=True`, the BER decoder accepts, with the same result.
-/

namespace Verif
namespace Asn1
namespace BerOpen

/-! ## More fuel does not change a result -/

theorem openField_mono {D : Registry} {f g : Ty → Bytes → Option OVal} (h : Extends f g) (ind : Bool) (ds : Comps) (us : OVals) (fld : Field)
    (v w : OVal) (h1 : openField D f ind ds us fld v = some w) : openField D g ind ds us fld v = some w := by
  simp only [openField] at h1 ⊢
  split
  · rename_i ho; simp only [ho] at h1; exact h1
  · rename_i o ho
    simp only [ho] at h1
    split
    · rename_i ha; rw [if_pos ha] at h1; exact h1
    · rename_i ha
      rw [if_neg ha] at h1
      split
      · rename_i hg; simp [hg] at h1
      · rename_i gv hg
        simp only [hg] at h1
        split
        · rename_i hD; simpa [hD] using h1
        · rename_i u hD
          simp only [hD] at h1
          split
          · rename_i hi; rw [if_pos hi] at h1; exact h1
          · rename_i hi; rw [if_neg hi] at h1; exact openVal_mono h u v w h1

theorem openAll_mono {D : Registry} {f g : Ty → Bytes → Option OVal} (h : Extends f g) (ind : Bool) (ds : Comps) (us : OVals) :
    ∀ (cs : Comps) (vs ws : OVals), openAll D f ind ds us cs vs = some ws → openAll D g ind ds us cs vs = some ws
  | .cons fld t cs, .cons v vs, ws, hw => by
    simp only [openAll] at hw ⊢
    split at hw
    · rename_i w ws' h1 h2
      rw [openAll_mono h ind ds us cs vs ws' h2, openField_mono h ind ds us fld v w h1]
      exact hw
    · simp at hw
  | .nil, _, ws, hw => by simpa [openAll] using hw
  | .cons _ _ _, .nil, ws, hw => by simpa [openAll] using hw

mutual
theorem odecT_mono {D : Registry} {f g : Ty → Bytes → Option OVal} (h : Extends f g) : ∀ (t : Ty) (x : Elt) (w : OVal),
    odecT D f t x = some w → odecT D g t x = some w
  | .prim k a, x, w, hw => by simpa [odecT] using hw
  | .seq s a cs, x, w, hw => by
    simp only [odecT] at hw ⊢
    split at hw
    · simp at hw
    · rename_i xs hx
      split at hw
      · simp at hw
      · rename_i vs hvs
        have : (if s then (if xs.all (fun x => cs.matches x.tlv) then odecSet D g cs xs else none) else odecComps D g cs xs) = some vs := by
          cases s with
          | false => simpa using odecComps_mono h cs xs vs (by simpa using hvs)
          | true =>
            simp only [if_true] at hvs ⊢
            split at hvs
            · rename_i hall; rw [if_pos hall]; exact odecSet_mono h cs xs vs hvs
            · simp at hvs
        rw [this]
        dsimp only
        cases hno : cs.noOpen with
        | true => rw [hno] at hw; exact hw
        | false =>
          rw [hno] at hw
          simp only [Bool.false_eq_true, if_false, Option.map_eq_some_iff] at hw ⊢
          obtain ⟨ws, h1, h2⟩ := hw
          exact ⟨ws, openAll_mono h (innerIndef a x) cs vs cs vs ws h1, h2⟩
  | .of s a t, x, w, hw => by
    simp only [odecT] at hw ⊢
    split at hw
    · simp at hw
    · rename_i xs hx
      split at hw
      · simp at hw
      · rename_i vs hvs
        rw [mapOpt_mono (odecT_mono h t) xs vs hvs]
        exact hw
  | .choice a cs, x, w, hw => by
    simp only [odecT] at hw ⊢
    split at hw
    · exact odecAlt_mono h cs 0 x w hw
    · split at hw
      · simp at hw
      · split at hw
        · simp at hw
        · rename_i z hz
          exact odecAlt_mono h cs 0 z w hw
  | .bad _, _, _, hw => by simp [odecT] at hw
theorem odecComps_mono {D : Registry} {f g : Ty → Bytes → Option OVal} (h : Extends f g) : ∀ (cs : Comps) (xs : List Elt)
    (ws : OVals), odecComps D f cs xs = some ws → odecComps D g cs xs = some ws
  | .nil, [], ws, hw => by simpa [odecComps] using hw
  | .nil, _ :: _, ws, hw => by simp [odecComps] at hw
  | .cons fld t cs, [], ws, hw => by
    simp only [odecComps] at hw ⊢
    split at hw
    · rename_i v ws' h1 h2
      simp only [h1, odecComps_mono h cs [] ws' h2]; exact hw
    · simp at hw
  | .cons fld t cs, x :: xs, ws, hw => by
    simp only [odecComps] at hw ⊢
    split at hw
    · rename_i hc
      rw [if_pos hc]
      split at hw
      · rename_i v ws' h1 h2
        simp only [odecT_mono h t x v h1, odecComps_mono h cs xs ws' h2]; exact hw
      · simp at hw
    · rename_i hc
      rw [if_neg hc]
      split at hw
      · rename_i v ws' h1 h2
        simp only [h1, odecComps_mono h cs (x :: xs) ws' h2]; exact hw
      · simp at hw
theorem odecSet_mono {D : Registry} {f g : Ty → Bytes → Option OVal} (h : Extends f g) : ∀ (cs : Comps) (xs : List Elt)
    (ws : OVals), odecSet D f cs xs = some ws → odecSet D g cs xs = some ws
  | .nil, xs, ws, hw => by simpa [odecSet] using hw
  | .cons fld t cs, xs, ws, hw => by
    simp only [odecSet] at hw ⊢
    split at hw
    · rename_i us ws' h1 h2
      simp only [mapOpt_mono (odecT_mono h t) _ us h1, odecSet_mono h cs xs ws' h2]; exact hw
    · simp at hw
theorem odecAlt_mono {D : Registry} {f g : Ty → Bytes → Option OVal} (h : Extends f g) : ∀ (cs : Comps) (k : Nat) (x : Elt)
    (w : OVal), odecAlt D f cs k x = some w → odecAlt D g cs k x = some w
  | .nil, _, _, _, hw => by simp [odecAlt] at hw
  | .cons fld t cs, k, x, w, hw => by
    simp only [odecAlt] at hw ⊢
    split at hw
    · rename_i hm
      rw [if_pos hm]
      split at hw
      · rename_i w' h1
        rw [odecT_mono h t x w' h1]; exact hw
      · simp at hw
    · rename_i hm
      rw [if_neg hm]
      exact odecAlt_mono h cs (k + 1) x w hw
end

theorem odecode_mono_succ (D : Registry) : ∀ (n : Nat) (t : Ty) (b : Bytes) (r : OVal × Bytes),
    odecode D n t b = some r → odecode D (n + 1) t b = some r
  | 0, _, _, _, h => by simp [odecode] at h
  | n + 1, t, b, r, h => by
    have hx : Extends (fun u c => (odecode D n u c).map Prod.fst) (fun u c => (odecode D (n + 1) u c).map Prod.fst) := by
      intro u c w h
      simp only [Option.map_eq_some_iff] at h ⊢
      obtain ⟨p, h1, h2⟩ := h
      exact ⟨p, odecode_mono_succ D n u c p h1, h2⟩
    rw [odecode] at h ⊢
    split at h
    · simp at h
    · rename_i x rest hr
      split at h
      · simp at h
      · rename_i v hv
        rw [odecT_mono hx t x v hv]
        exact h

theorem odecode_mono (D : Registry) (n m : Nat) (h : n ≤ m) (t : Ty) (b : Bytes) (r : OVal × Bytes)
    (hr : odecode D n t b = some r) : odecode D m t b = some r := by
  induction m with
  | zero =>
    have : n = 0 := by omega
    subst this; exact hr
  | succ m ih =>
    by_cases hn : n ≤ m
    · exact odecode_mono_succ D m t b r (ih hn)
    · have : n = m + 1 := by omega
      subst this; exact hr

/-! ## What the DER decoder accepts -/

theorem openField_definite (D : Registry) (f : Ty → Bytes → Option OVal) (cs : Comps) (vs : OVals) (fld : Field) (v : OVal) :
    openField D f false cs vs fld v = Asn1.openField D f cs vs fld v := by
  simp only [openField, Asn1.openField, Bool.false_and, Bool.false_eq_true, if_false]
  rfl

theorem openAll_definite (D : Registry) (f : Ty → Bytes → Option OVal) (cs : Comps) (vs : OVals) : ∀ (ds : Comps) (us : OVals),
    openAll D f false cs vs ds us = Asn1.openAll D f cs vs ds us
  | .cons fld t ds, .cons u us => by
    simp only [openAll, Asn1.openAll, openField_definite, openAll_definite D f cs vs ds us]
    rfl
  | .nil, _ => by simp [openAll, Asn1.openAll]
  | .cons _ _ _, .nil => by simp [openAll, Asn1.openAll]

theorem innerIndef_definite (a : Attrs) (x : TLV) (xs : List TLV) (h : innerItems a x = some xs) :
    innerIndef a (Elt.of x) = false := by
  unfold innerItems at h
  unfold innerIndef
  cases h1 : unwrap a.tags.reverse x with
  | none => simp [h1] at h
  | some y => rw [unwrapE_definite _ _ _ h1]; rfl

theorem mapOpt_elts' (f : TLV → Option OVal) (g : Elt → Option OVal) (hfg : ∀ x v, f x = some v → g (Elt.of x) = some v) :
    ∀ (xs : List TLV) (vs : List OVal), mapOpt f xs = some vs → mapOpt g (xs.map Elt.of) = some vs
  | [], vs, h => by simpa [mapOpt] using h
  | x :: xs, vs, h => by
    simp only [mapOpt] at h
    split at h
    · rename_i y ys h1 h2
      simp at h; subst h
      simp [mapOpt, hfg x y h1, mapOpt_elts' f g hfg xs ys h2]
    · simp at h

theorem record_extends {D : Registry} {f g : Ty → Bytes → Option OVal} (hfg : Extends f g) (a : Attrs) (cs : Comps) (x : TLV)
    (xs : List TLV) (vs : OVals) (v : OVal) (h1 : innerItems a x = some xs)
    (h : (if cs.noOpen = true then
        if a.spec.ok (.mapping (opresentNames cs vs).length (opresentNames cs vs)) = true then some (OVal.record vs) else none
      else Option.map OVal.record (Asn1.openAll D f cs vs cs vs)) = some v) :
    (if cs.noOpen = true then
        if a.spec.ok (.mapping (opresentNames cs vs).length (opresentNames cs vs)) = true then some (OVal.record vs) else none
      else Option.map OVal.record (openAll D g (innerIndef a (Elt.of x)) cs vs cs vs)) = some v := by
  cases hno : cs.noOpen with
  | true => rw [hno] at h; exact h
  | false =>
    rw [hno] at h
    simp only [Bool.false_eq_true, if_false, Option.map_eq_some_iff] at h ⊢
    obtain ⟨ws, h2, h3⟩ := h
    rw [innerIndef_definite a x xs h1, openAll_definite]
    exact ⟨ws, Asn1.openAll_mono hfg cs vs cs vs ws h2, h3⟩

mutual
theorem odecT_extends {D : Registry} {f g : Ty → Bytes → Option OVal} (hfg : Extends f g) : ∀ (t : Ty) (x : TLV) (v : OVal), Asn1.odecT D f t x = some v → odecT D g t (Elt.of x) = some v
  | .prim k a, x, v, h => by
    simp only [Asn1.odecT] at h
    simp only [odecT]
    simp only [Option.map_eq_some_iff] at h ⊢
    obtain ⟨o, h1, h2⟩ := h
    exact ⟨o, bdecPrimT_extends k a x o h1, h2⟩
  | .seq s a cs, x, v, h => by
    simp only [Asn1.odecT] at h
    simp only [odecT]
    cases h1 : innerItems a x with
    | none => simp [h1] at h
    | some xs =>
      simp only [h1] at h
      simp only [innerElts_definite _ _ _ h1]
      cases s with
      | true =>
        simp only [if_true] at h ⊢
        by_cases h2 : xs.all cs.matches = true
        · simp only [h2, if_true] at h
          have h2' : (xs.map Elt.of).all (fun x => cs.matches x.tlv) = true := by
            rw [List.all_map]; exact h2
          simp only [h2', if_true]
          cases h3 : Asn1.odecSet D f cs xs with
          | none => simp [h3] at h
          | some vs =>
            simp only [h3] at h
            simp only [odecSet_extends hfg cs xs vs h3]
            exact record_extends hfg a cs x xs vs v h1 h
        · simp [h2] at h
      | false =>
        simp only [Bool.false_eq_true, if_false] at h ⊢
        cases h3 : Asn1.odecComps D f cs xs with
        | none => simp [h3] at h
        | some vs =>
          simp only [h3] at h
          simp only [odecComps_extends hfg cs xs vs h3]
          exact record_extends hfg a cs x xs vs v h1 h
  | .of s a t, x, v, h => by
    simp only [Asn1.odecT] at h
    simp only [odecT]
    cases h1 : innerItems a x with
    | none => simp [h1] at h
    | some xs =>
      simp only [h1] at h
      simp only [innerElts_definite _ _ _ h1]
      cases h2 : mapOpt (Asn1.odecT D f t) xs with
      | none => simp [h2] at h
      | some vs =>
        simp only [h2] at h
        simp only [mapOpt_elts' _ _ (odecT_extends hfg t) xs vs h2]
        exact h
  | .choice a cs, x, v, h => by
    simp only [Asn1.odecT] at h
    simp only [odecT]
    cases hts : a.tags with
    | nil =>
      simp only [hts] at h ⊢
      exact odecAlt_extends hfg cs 0 x v h
    | cons t ts =>
      simp only [hts] at h ⊢
      cases h1 : unwrap (t :: ts).reverse x with
      | none => simp only [h1] at h; cases h
      | some y =>
        simp only [h1] at h
        simp only [unwrapE_definite _ _ _ h1]
        cases h2 : readTLV y.content with
        | none => simp [h2] at h
        | some p =>
          obtain ⟨z, r⟩ := p
          simp only [h2] at h
          simp only [Elt.inner, Elt.of, Bool.false_eq_true, if_false, readElt_definite _ _ _ h2, Option.map_some]
          exact odecAlt_extends hfg cs 0 z v h
  | .bad _, _, _, h => by simp [Asn1.odecT] at h
theorem odecComps_extends {D : Registry} {f g : Ty → Bytes → Option OVal} (hfg : Extends f g) : ∀ (cs : Comps) (xs : List TLV) (vs : OVals), Asn1.odecComps D f cs xs = some vs → odecComps D g cs (xs.map Elt.of) = some vs
  | .nil, [], vs, h => by
    simp only [Asn1.odecComps] at h
    simp only [List.map_nil, odecComps]
    exact h
  | .nil, _ :: _, _, h => by simp [Asn1.odecComps] at h
  | .cons fld t cs, [], vs, h => by
    simp only [Asn1.odecComps] at h
    simp only [List.map_nil, odecComps]
    split at h
    · rename_i v ws h1 h2
      have := odecComps_extends hfg cs [] ws h2
      simp only [List.map_nil] at this
      simp only [h1, this]
      exact h
    · cases h
  | .cons fld t cs, x :: xs, vs, h => by
    simp only [Asn1.odecComps] at h
    simp only [List.map_cons, odecComps, Elt.of]
    split at h
    · rename_i hc
      rw [if_pos hc]
      split at h
      · rename_i v ws h1 h2
        have g1 := odecT_extends hfg t x v h1
        have g2 := odecComps_extends hfg cs xs ws h2
        simp only [Elt.of] at g1
        simp only [g1, g2]
        exact h
      · cases h
    · rename_i hc
      rw [if_neg hc]
      split at h
      · rename_i v ws h1 h2
        have := odecComps_extends hfg cs (x :: xs) ws h2
        simp only [List.map_cons, Elt.of] at this
        simp only [h1]
        show (match some v, odecComps D g cs (⟨x, false⟩ :: xs.map Elt.of) with
          | some v, some vs => some (OVals.cons (.leaf v) vs)
          | _, _ => none) = _
        have h4 : odecComps D g cs (⟨x, false⟩ :: xs.map Elt.of) = some ws := this
        simp only [h4]
        exact h
      · cases h
theorem odecSet_extends {D : Registry} {f g : Ty → Bytes → Option OVal} (hfg : Extends f g) : ∀ (cs : Comps) (xs : List TLV) (vs : OVals), Asn1.odecSet D f cs xs = some vs → odecSet D g cs (xs.map Elt.of) = some vs
  | .nil, xs, vs, h => by
    simp only [Asn1.odecSet] at h
    simp only [odecSet]
    exact h
  | .cons fld t cs, xs, vs, h => by
    simp only [Asn1.odecSet] at h
    simp only [odecSet]
    have hf : (xs.map Elt.of).filter (fun x => t.matches x.tlv) = (xs.filter t.matches).map Elt.of := by
      rw [List.filter_map]; rfl
    rw [hf]
    cases h1 : mapOpt (Asn1.odecT D f t) (xs.filter t.matches) with
    | none => simp [h1] at h
    | some ws =>
      cases h2 : Asn1.odecSet D f cs xs with
      | none => simp [h1, h2] at h
      | some us =>
        simp only [h1, h2] at h
        simp only [mapOpt_elts' _ _ (odecT_extends hfg t) _ ws h1, odecSet_extends hfg cs xs us h2]
        exact h
theorem odecAlt_extends {D : Registry} {f g : Ty → Bytes → Option OVal} (hfg : Extends f g) : ∀ (cs : Comps) (i : Nat) (x : TLV) (v : OVal), Asn1.odecAlt D f cs i x = some v → odecAlt D g cs i (Elt.of x) = some v
  | .nil, _, _, _, h => by simp [Asn1.odecAlt] at h
  | .cons fld t cs, i, x, v, h => by
    simp only [Asn1.odecAlt] at h
    simp only [odecAlt]
    split at h
    · rename_i hm
      have hm' : t.matches (Elt.of x).tlv = true := hm
      rw [if_pos hm']
      cases h1 : Asn1.odecT D f t x with
      | none => simp [h1] at h
      | some w =>
        simp only [h1] at h
        simp only [odecT_extends hfg t x w h1]
        exact h
    · rename_i hm
      have hm' : ¬ t.matches (Elt.of x).tlv = true := hm
      rw [if_neg hm']
      exact odecAlt_extends hfg cs (i + 1) x v h
end

/-- What the DER decoder accepts with open types the BER decoder accepts, with the same result. -/
theorem odecode_extends (D : Registry) : ∀ (n : Nat) (t : Ty) (b : Bytes) (r : OVal × Bytes),
    Asn1.odecode D n t b = some r → odecode D n t b = some r
  | 0, _, _, _, h => by simp [Asn1.odecode] at h
  | n + 1, t, b, r, h => by
    have hx : Extends (fun u c => (Asn1.odecode D n u c).map Prod.fst) (fun u c => (odecode D n u c).map Prod.fst) := by
      intro u c w h
      simp only [Option.map_eq_some_iff] at h ⊢
      obtain ⟨p, h1, h2⟩ := h
      exact ⟨p, odecode_extends D n u c p h1, h2⟩
    rw [Asn1.odecode] at h
    rw [odecode]
    split at h
    · simp at h
    · rename_i x rest hr
      rw [readElt_definite _ _ _ hr]
      split at h
      · simp at h
      · rename_i v hv
        show (match odecT D (fun u c => (odecode D n u c).map Prod.fst) t (Elt.of x) with
          | none => none
          | some v => some (v, rest)) = some r
        rw [odecT_extends hx t x v hv]
        exact h

/-! ## How much fuel is enough -/

theorem readElt_framed {b : Bytes} {x : Elt} {r : Bytes} (h : readElt b = some (x, r)) :
    Framed x.tlv ∧ x.tlv.raw.length ≤ b.length := by
  obtain ⟨h1, h2⟩ := readElt_raw b x r h
  refine ⟨whole_framed h2, ?_⟩
  rw [h1, List.length_append]; omega

theorem totalE_mem : ∀ {xs : List Elt} {y : Elt}, y ∈ xs → y.tlv.raw.length ≤ totalE xs
  | x :: xs, y, h => by
    simp only [totalE]
    rcases List.mem_cons.1 h with rfl | h
    · omega
    · have := totalE_mem h; omega

theorem innerElts_proper {a : Attrs} {x : Elt} {xs : List Elt} (h : innerElts a x = some xs) (hp : Framed x.tlv) :
    ∀ y ∈ xs, Framed y.tlv ∧ y.tlv.raw.length < x.tlv.raw.length := by
  intro y hy
  have h1 := innerElts_total h hp
  have h2 := totalE_mem hy
  exact ⟨innerElts_framed h y hy, by omega⟩

theorem bdecPrimT_short {k : Prim} {a : Attrs} {x : Elt} {b : Bytes} (h : bdecPrimT k a x = some (.octets b)) (hp : Framed x.tlv) :
    b.length ≤ x.tlv.raw.length := by
  simp only [bdecPrimT] at h
  split at h
  · split at h
    · simp at h
    · exact decPrimT_short h hp.proper
  · split at h
    · simp at h
    · rename_i y hy
      obtain ⟨h1, h2⟩ := unwrapE_framed _ x y hy hp
      unfold Framed at h1
      split at h
      · simp at h
      · rename_i v hv
        split at h
        · simp only [Option.some.injEq] at h; subst h
          split at hv
          · simp only [Option.bind_eq_some_iff] at hv
            obtain ⟨xs, h3, h4⟩ := hv
            have h5 := elts_total h3
            have h6 := octets_total xs (elts_framed h3)
            cases k <;> simp only [joined] at h4 <;> try (cases h4; done)
            · split at h4 <;> simp at h4
            · split at h4
              · simp only [Option.some.injEq, Val.octets.injEq] at h4
                subst h4
                omega
              · simp at h4
          · have : b = y.tlv.content := by
              cases k <;> simp [bdecPrim, decPrim] at hv
              · exact hv.symm
              · exact hv.symm
            rw [this]; omega
        · simp at h

theorem odecT_leaf_short {D : Registry} {f : Ty → Bytes → Option OVal} {t : Ty} {x : Elt} {b : Bytes}
    (h : odecT D f t x = some (.leaf (.octets b))) (hp : Framed x.tlv) : b.length ≤ x.tlv.raw.length := by
  have alt : ∀ (cs : Comps) (k : Nat) (x : Elt), odecAlt D f cs k x ≠ some (.leaf (.octets b)) := by
    intro cs
    induction cs using Comps.rec (motive_1 := fun _ => True) with
    | nil => intro k x h; simp [odecAlt] at h
    | cons fld t cs _ ih =>
      intro k x h
      simp only [odecAlt] at h
      split at h
      · split at h <;> simp at h
      · exact ih _ _ h
    | _ => trivial
  cases t with
  | prim k a =>
    simp only [odecT, Option.map_eq_some_iff] at h
    obtain ⟨v, h1, h2⟩ := h
    cases h2
    exact bdecPrimT_short h1 hp
  | seq s a cs =>
    simp only [odecT] at h
    split at h
    · simp at h
    · split at h
      · simp at h
      · split at h
        · split at h <;> simp at h
        · simp at h
  | of s a t =>
    simp only [odecT] at h
    split at h
    · simp at h
    · split at h <;> simp at h
  | choice a cs =>
    simp only [odecT] at h
    split at h
    · exact absurd h (alt _ _ _)
    · split at h
      · simp at h
      · split at h
        · simp at h
        · exact absurd h (alt _ _ _)
  | bad w => simp [odecT] at h

theorem odecT_short {D : Registry} {f : Ty → Bytes → Option OVal} {t : Ty} {x : Elt} {w : OVal} {N : Nat}
    (h : odecT D f t x = some w) (hp : Framed x.tlv) (hN : x.tlv.raw.length < N) : Short N w := by
  cases w with
  | leaf v =>
    cases v with
    | octets b => have := odecT_leaf_short h hp; simp only [Short]; omega
    | _ => trivial
  | list ws =>
    intro b hb
    cases t with
    | of s a t =>
      simp only [odecT] at h
      split at h
      · simp at h
      · rename_i xs hxs
        split at h
        · simp at h
        · rename_i vs hvs
          simp at h; subst h
          rw [OVals.toList_ofList] at hb
          obtain ⟨y, h1, h2⟩ := mapOpt_mem hvs _ hb
          obtain ⟨h3, h4⟩ := innerElts_proper hxs hp y h1
          have := odecT_leaf_short h2 h3
          omega
    | prim k a => simp [odecT] at h
    | seq s a cs =>
      simp only [odecT] at h
      split at h
      · simp at h
      · split at h
        · simp at h
        · split at h
          · split at h <;> simp at h
          · simp at h
    | choice a cs =>
      have alt : ∀ (cs : Comps) (k : Nat) (x : Elt), odecAlt D f cs k x ≠ some (.list ws) := by
        intro cs
        induction cs using Comps.rec (motive_1 := fun _ => True) with
        | nil => intro k x h; simp [odecAlt] at h
        | cons fld t cs _ ih =>
          intro k x h
          simp only [odecAlt] at h
          split at h
          · split at h <;> simp at h
          · exact ih _ _ h
        | _ => trivial
      simp only [odecT] at h
      split at h
      · exact absurd h (alt _ _ _)
      · split at h
        · simp at h
        · split at h
          · simp at h
          · exact absurd h (alt _ _ _)
    | bad w => simp [odecT] at h
  | _ => trivial

theorem odecComps_short {D : Registry} {f : Ty → Bytes → Option OVal} {N : Nat} : ∀ (cs : Comps) (xs : List Elt) (ws : OVals),
    cs.openOk = true → odecComps D f cs xs = some ws → (∀ x ∈ xs, Framed x.tlv ∧ x.tlv.raw.length < N) → ShortC N cs ws
  | .nil, _, _, _, _, _ => by simp [ShortC]
  | .cons fld t cs, [], ws, ho, h, hx => by
    simp only [odecComps] at h
    split at h
    · rename_i v ws' h1 h2
      simp at h; subst h
      exact ⟨missing_short ho h1 N, odecComps_short cs [] ws' (openOk_tail ho) h2 hx⟩
    · simp at h
  | .cons fld t cs, x :: xs, ws, ho, h, hx => by
    simp only [odecComps] at h
    split at h
    · split at h
      · rename_i v ws' h1 h2
        simp at h; subst h
        obtain ⟨h3, h4⟩ := hx x (by simp)
        exact ⟨fun _ => odecT_short h1 h3 h4, odecComps_short cs xs ws' (openOk_tail ho) h2 (fun y hy => hx y (by simp [hy]))⟩
      · simp at h
    · split at h
      · rename_i v ws' h1 h2
        simp at h; subst h
        exact ⟨missing_short ho h1 N, odecComps_short cs _ ws' (openOk_tail ho) h2 hx⟩
      · simp at h

theorem odecSet_short {D : Registry} {f : Ty → Bytes → Option OVal} {N : Nat} : ∀ (cs : Comps) (xs : List Elt) (ws : OVals),
    cs.openOk = true → odecSet D f cs xs = some ws → (∀ x ∈ xs, Framed x.tlv ∧ x.tlv.raw.length < N) → ShortC N cs ws
  | .nil, _, _, _, _, _ => by simp [ShortC]
  | .cons fld t cs, xs, ws, ho, h, hx => by
    simp only [odecSet] at h
    split at h
    · rename_i us ws' h1 h2
      have ih := odecSet_short cs xs ws' (openOk_tail ho) h2 hx
      split at h
      · rename_i w hw
        simp at h; subst h
        obtain ⟨y, h3, h4⟩ := mapOpt_mem h1 w (List.mem_of_getLast? hw)
        obtain ⟨h5, h6⟩ := hx y (List.mem_filter.1 h3).1
        exact ⟨fun _ => odecT_short h4 h5 h6, ih⟩
      · split at h
        · rename_i v hv
          simp at h; subst h
          exact ⟨missing_short ho hv N, ih⟩
        · simp at h
    · simp at h

theorem openField_congr {D : Registry} {f g : Ty → Bytes → Option OVal} {N : Nat} (h : AgreeOn D N f g) (ind : Bool) (ds : Comps) (us : OVals)
    (fld : Field) (v : OVal) (hs : fld.openType ≠ none → Short N v) : openField D f ind ds us fld v = openField D g ind ds us fld v := by
  simp only [openField]
  split
  · rfl
  · rename_i ot ho
    split
    · rfl
    · split
      · rfl
      · rename_i k hk
        split
        · rfl
        · rename_i u hu
          split
          · rfl
          · exact openVal_congr (fun c hc => h _ _ u c hu hc) v (hs (by simp [ho]))

theorem openAll_congr {D : Registry} {f g : Ty → Bytes → Option OVal} {N : Nat} (h : AgreeOn D N f g) (ind : Bool) (ds : Comps) (us : OVals) :
    ∀ (cs : Comps) (vs : OVals), ShortC N cs vs → openAll D f ind ds us cs vs = openAll D g ind ds us cs vs
  | .cons fld t cs, .cons v vs, hs => by
    simp only [openAll]
    rw [openAll_congr h ind ds us cs vs hs.2, openField_congr h ind ds us fld v hs.1]
  | .nil, _, _ => by simp [openAll]
  | .cons _ _ _, .nil, _ => by simp [openAll]

mutual
theorem odecT_congr {D : Registry} {f g : Ty → Bytes → Option OVal} {N : Nat} (h : AgreeOn D N f g) : ∀ (t : Ty) (x : Elt),
    t.each Ty.openOk = true → Framed x.tlv → x.tlv.raw.length ≤ N → odecT D f t x = odecT D g t x
  | .prim k a, x, _, _, _ => by simp [odecT]
  | .seq s a cs, x, ho, hp, hN => by
    simp only [Ty.each, Ty.openOk, Bool.and_eq_true] at ho
    simp only [odecT]
    split
    · rfl
    · rename_i xs hx
      have hin : ∀ y ∈ xs, Framed y.tlv ∧ y.tlv.raw.length < N := by
        intro y hy
        obtain ⟨h1, h2⟩ := innerElts_proper hx hp y hy
        exact ⟨h1, by omega⟩
      rw [odecComps_congr h cs xs ho.2 hin, odecSet_congr h cs xs ho.2 hin]
      split
      · rfl
      · rename_i vs hvs
        split
        · rfl
        · rw [openAll_congr h (innerIndef a x) cs vs cs vs]
          cases s with
          | false => exact odecComps_short cs xs vs ho.1 (by simpa using hvs) hin
          | true =>
            simp only [if_true] at hvs
            split at hvs
            · exact odecSet_short cs xs vs ho.1 hvs hin
            · simp at hvs
  | .of s a t, x, ho, hp, hN => by
    simp only [Ty.each, Bool.and_eq_true] at ho
    simp only [odecT]
    split
    · rfl
    · rename_i xs hx
      rw [mapOpt_congr xs (fun y hy => ?_)]
      obtain ⟨h1, h2⟩ := innerElts_proper hx hp y hy
      exact odecT_congr h t y ho.2 h1 (by omega)
  | .choice a cs, x, ho, hp, hN => by
    simp only [Ty.each, Bool.and_eq_true] at ho
    simp only [odecT]
    split
    · exact odecAlt_congr h cs 0 x ho.2 hp hN
    · split
      · rfl
      · rename_i y hy
        obtain ⟨h1, h2⟩ := unwrapE_framed _ x y hy hp
        split
        · rfl
        · rename_i z hz
          obtain ⟨h3, h4⟩ := inner_framed hz
          unfold Framed at h1
          exact odecAlt_congr h cs 0 z ho.2 h3 (by omega)
  | .bad _, _, _, _, _ => by simp [odecT]
theorem odecComps_congr {D : Registry} {f g : Ty → Bytes → Option OVal} {N : Nat} (h : AgreeOn D N f g) : ∀ (cs : Comps)
    (xs : List Elt), cs.each Ty.openOk = true → (∀ x ∈ xs, Framed x.tlv ∧ x.tlv.raw.length < N) →
    odecComps D f cs xs = odecComps D g cs xs
  | .nil, [], _, _ => by simp [odecComps]
  | .nil, _ :: _, _, _ => by simp [odecComps]
  | .cons fld t cs, [], ho, hx => by
    simp only [Comps.each, Bool.and_eq_true] at ho
    simp only [odecComps, odecComps_congr h cs [] ho.2 hx]
  | .cons fld t cs, x :: xs, ho, hx => by
    simp only [Comps.each, Bool.and_eq_true] at ho
    obtain ⟨h1, h2⟩ := hx x (by simp)
    simp only [odecComps, odecComps_congr h cs (x :: xs) ho.2 hx, odecT_congr h t x ho.1 h1 (by omega),
      odecComps_congr h cs xs ho.2 (fun y hy => hx y (by simp [hy]))]
theorem odecSet_congr {D : Registry} {f g : Ty → Bytes → Option OVal} {N : Nat} (h : AgreeOn D N f g) : ∀ (cs : Comps)
    (xs : List Elt), cs.each Ty.openOk = true → (∀ x ∈ xs, Framed x.tlv ∧ x.tlv.raw.length < N) →
    odecSet D f cs xs = odecSet D g cs xs
  | .nil, _, _, _ => by simp [odecSet]
  | .cons fld t cs, xs, ho, hx => by
    simp only [Comps.each, Bool.and_eq_true] at ho
    simp only [odecSet, odecSet_congr h cs xs ho.2 hx]
    rw [mapOpt_congr (xs.filter (fun x => t.matches x.tlv)) (fun y hy => ?_)]
    obtain ⟨h1, h2⟩ := hx y (List.mem_filter.1 hy).1
    exact odecT_congr h t y ho.1 h1 (by omega)
theorem odecAlt_congr {D : Registry} {f g : Ty → Bytes → Option OVal} {N : Nat} (h : AgreeOn D N f g) : ∀ (cs : Comps)
    (k : Nat) (x : Elt), cs.each Ty.openOk = true → Framed x.tlv → x.tlv.raw.length ≤ N → odecAlt D f cs k x = odecAlt D g cs k x
  | .nil, _, _, _, _, _ => by simp [odecAlt]
  | .cons fld t cs, k, x, ho, hp, hN => by
    simp only [Comps.each, Bool.and_eq_true] at ho
    simp only [odecAlt, odecAlt_congr h cs (k + 1) x ho.2 hp hN, odecT_congr h t x ho.1 hp hN]
end

/-- Any two bounds above the length of the input give the same result. -/
theorem odecode_fuel {D : Registry} (hD : D.openOk) : ∀ (N : Nat) (t : Ty) (b : Bytes) (n m : Nat), t.each Ty.openOk = true →
    b.length ≤ N → b.length < n → b.length < m → odecode D n t b = odecode D m t b
  | N, t, b, 0, _, _, _, hn, _ => by omega
  | N, t, b, _, 0, _, _, _, hm => by omega
  | N, t, b, n + 1, m + 1, ht, hN, hn, hm => by
    simp only [odecode]
    split
    · rfl
    · rename_i x rest hx
      obtain ⟨h1, h2⟩ := readElt_framed hx
      rw [odecT_congr (g := fun u c => (odecode D m u c).map Prod.fst) (N := b.length) ?_ t x ht h1 h2]
      intro m' k u c hu hc
      cases N with
      | zero => omega
      | succ N =>
        show (odecode D n u c).map Prod.fst = (odecode D m u c).map Prod.fst
        rw [odecode_fuel hD N u c n m (hD m' k u hu) (by omega) (by omega) (by omega)]

end BerOpen
end Asn1
end Verif
