import Verif.Asn1.BerOpenFuel

/-! # How large what the BER decoder returns with open types can be -/

namespace Verif
namespace Asn1
namespace BerOpen

theorem openField_size {K : Nat} {D : Registry} {f : Ty → Bytes → Option OVal} (hf : Bounded K D f) {ind : Bool} {ds : Comps} {us : OVals}
    {fld : Field} {v w : OVal} (h : openField D f ind ds us fld v = some w) :
    w.size ≤ if fld.openType.isSome then max v.size (v.room K) else v.size := by
  unfold openField at h
  split at h
  · rename_i ho
    simp at h; subst h; simp [ho]
  · rename_i ot ho
    simp only [ho, Option.isSome_some, if_true]
    split at h
    · simp at h; subst h; exact Nat.le_max_left ..
    · split at h
      · simp at h
      · rename_i g hg
        split at h
        · simp at h; subst h; exact Nat.le_max_left ..
        · rename_i u hu
          split at h
          · simp at h; subst h; exact Nat.le_max_left ..
          exact Nat.le_trans (openVal_size (fun c v hv => hf _ _ u c v hu hv) h) (Nat.le_max_right ..)

theorem openAll_size {K : Nat} {D : Registry} {f : Ty → Bytes → Option OVal} (hf : Bounded K D f) {ind : Bool} {ds : Comps} {us : OVals} :
    ∀ (cs : Comps) (vs ws : OVals), openAll D f ind ds us cs vs = some ws → ws.size ≤ roomC K cs vs
  | .nil, _, ws, h => by simp [openAll] at h; subst h; simp [OVals.size]
  | .cons _ _ _, .nil, ws, h => by simp [openAll] at h; subst h; simp [OVals.size]
  | .cons fld t cs, .cons v vs, ws, h => by
    simp only [openAll] at h
    split at h
    · rename_i w ws' h1 h2
      simp at h; subst h
      have := openField_size hf h1
      have := openAll_size hf cs vs ws' h2
      simp only [OVals.size, roomC]; omega
    · simp at h

theorem mapOpt_osizeE {g : Elt → Option OVal} {K : Nat} : ∀ (xs : List Elt) (vs : List OVal), mapOpt g xs = some vs →
    (∀ x ∈ xs, ∀ v, g x = some v → v.size ≤ K * x.tlv.raw.length ∧ v.room K ≤ K * x.tlv.raw.length) →
    (OVals.ofList vs).size ≤ K * totalE xs ∧ (OVals.ofList vs).room K ≤ K * totalE xs
  | [], vs, h, _ => by simp [mapOpt] at h; subst h; simp [OVals.ofList, OVals.size, OVals.room]
  | x :: xs, vs, h, hg => by
    simp only [mapOpt] at h
    split at h
    · rename_i v vs' h1 h2
      simp at h; subst h
      obtain ⟨e1, e3⟩ := hg x (by simp) v h1
      obtain ⟨e2, e4⟩ := mapOpt_osizeE xs vs' h2 (fun y hy => hg y (by simp [hy]))
      simp only [OVals.ofList, OVals.size, totalE, Nat.mul_add]
      refine ⟨by omega, ?_⟩
      unfold OVals.room
      split
      · rename_i heq; cases heq
      · rename_i b us heq
        cases heq
        simp only [OVal.room] at e3
        omega
      · rename_i heq; cases heq; omega
    · simp at h

theorem odecSet_filter {D : Registry} {f : Ty → Bytes → Option OVal} (q : Elt → Bool) : ∀ (cs : Comps) (xs : List Elt),
    (∀ x, cs.matches x.tlv = true → q x = true) → odecSet D f cs (xs.filter q) = odecSet D f cs xs
  | .nil, xs, _ => by simp [odecSet]
  | .cons fld t cs, xs, h => by
    have e : (xs.filter q).filter (fun x => t.matches x.tlv) = xs.filter (fun x => t.matches x.tlv) := by
      rw [List.filter_filter]
      apply List.filter_congr
      intro x _
      cases ht : t.matches x.tlv with
      | false => rfl
      | true => simp [h x (by simp [Comps.matches, ht])]
    simp only [odecSet, e]
    rw [odecSet_filter q cs xs (fun x hx => h x (by simp [Comps.matches, hx]))]

mutual
theorem odecT_size {K : Nat} {D : Registry} {f : Ty → Bytes → Option OVal} (hK : 2 ≤ K) (hB : Bounded K D f) :
    ∀ (t : Ty) (x : Elt) (v : OVal), t.each (Ty.within K) = true → t.setsOk = true → t.each Ty.openOk = true → Framed x.tlv →
    odecT D f t x = some v → v.size ≤ K * x.tlv.raw.length ∧ v.room K ≤ K * x.tlv.raw.length
  | .prim k a, x, v, _, _, _, hp, h => by
    obtain ⟨w, h0, rfl⟩ := Option.map_eq_some_iff.1 (by simpa only [odecT] using h)
    have h1 := bdecPrimT_size h0 hp
    have hp' := hp
    unfold Framed at hp
    have : 2 * x.tlv.raw.length ≤ K * x.tlv.raw.length := Nat.mul_le_mul_right _ hK
    refine ⟨by simp only [OVal.size]; omega, ?_⟩
    unfold OVal.room
    split
    · rename_i b heq
      cases heq
      exact Nat.mul_le_mul_left _ (bdecPrimT_short h0 hp')
    · rename_i heq; cases heq
    · omega
  | .seq s a cs, x, v, hf, hs, ho, hp, h => by
    simp only [Ty.each, Bool.and_eq_true, Ty.within, decide_eq_true_eq] at hf
    simp only [Ty.each, Bool.and_eq_true, Ty.openOk] at ho
    simp only [Ty.setsOk, Bool.and_eq_true] at hs
    simp only [odecT] at h
    split at h
    · simp at h
    · rename_i xs hxs
      have hw := innerElts_framed hxs
      have ht := innerElts_total hxs hp
      split at h
      · simp at h
      · rename_i vs hvs
        have key : roomC K cs vs ≤ K * totalE xs + cs.blank ∧ vs.length = cs.length := by
          cases s with
          | true =>
            simp only [if_true] at hvs
            split at hvs
            · simp only [Bool.not_true, Bool.false_or] at hs
              exact odecSet_size hK hB cs xs vs hf.2 hs.2 hs.1 ho.2 ho.1 (fun y hy => hw y hy) hvs
            · simp at hvs
          | false =>
            simp only [Bool.false_eq_true, if_false] at hvs
            exact odecComps_size hK hB cs xs vs hf.2 hs.2 ho.2 ho.1 (fun y hy => hw y hy) hvs
        have e := Nat.mul_le_mul_left K ht
        rw [Nat.mul_add] at e
        have h1 := hf.1
        have fin : ∀ us : OVals, us.size ≤ roomC K cs vs → v = .record us →
            v.size ≤ K * x.tlv.raw.length ∧ v.room K ≤ K * x.tlv.raw.length := by
          intro us hu hv
          subst hv
          simp only [OVal.size, OVal.room]
          omega
        split at h
        · split at h
          · simp only [Option.some.injEq] at h
            exact fin vs (size_roomC cs vs key.2) h.symm
          · simp at h
        · obtain ⟨us, h2, h3⟩ := Option.map_eq_some_iff.1 h
          exact fin us (openAll_size hB cs vs us h2) h3.symm
  | .of s a t, x, v, hf, hs, ho, hp, h => by
    simp only [Ty.each, Bool.and_eq_true] at hf ho
    simp only [Ty.setsOk] at hs
    simp only [odecT] at h
    split at h
    · simp at h
    · rename_i xs hxs
      have hw := innerElts_framed hxs
      have ht := innerElts_total hxs hp
      split at h
      · simp at h
      · rename_i vs hvs
        simp only [Option.some.injEq] at h
        subst h
        have e := mapOpt_osizeE xs vs hvs (fun y hy w hw' => odecT_size hK hB t y w hf.2 hs ho.2 (hw y hy) hw')
        have := Nat.mul_le_mul_left K ht
        rw [Nat.mul_add] at this
        simp only [OVal.size, OVal.room]
        omega
  | .choice a cs, x, v, hf, hs, ho, hp, h => by
    simp only [Ty.each, Bool.and_eq_true] at hf ho
    simp only [Ty.setsOk] at hs
    simp only [odecT] at h
    split at h
    · exact odecAlt_size hK hB cs 0 x v hf.2 hs ho.2 hp h
    · split at h
      · simp at h
      · rename_i y hy
        obtain ⟨h1, h2⟩ := unwrapE_framed _ x y hy hp
        split at h
        · simp at h
        · rename_i z hz
          obtain ⟨h3, h4⟩ := inner_framed hz
          have e := odecAlt_size hK hB cs 0 z v hf.2 hs ho.2 h3 h
          unfold Framed at h1
          have := Nat.mul_le_mul_left K (show z.tlv.raw.length ≤ x.tlv.raw.length by omega)
          omega
  | .bad _, x, v, _, _, _, _, h => by simp [odecT] at h
theorem odecComps_size {K : Nat} {D : Registry} {f : Ty → Bytes → Option OVal} (hK : 2 ≤ K) (hB : Bounded K D f) :
    ∀ (cs : Comps) (xs : List Elt) (vs : OVals), cs.each (Ty.within K) = true → cs.setsOk = true → cs.each Ty.openOk = true →
    cs.openOk = true → (∀ x ∈ xs, Framed x.tlv) → odecComps D f cs xs = some vs →
    roomC K cs vs ≤ K * totalE xs + cs.blank ∧ vs.length = cs.length
  | .nil, [], vs, _, _, _, _, _, h => by
    simp only [odecComps, Option.some.injEq] at h
    subst h
    simp [roomC, OVals.length, Comps.length]
  | .nil, _ :: _, vs, _, _, _, _, _, h => by simp [odecComps] at h
  | .cons fld t cs, [], vs, hf, hs, ho, hc, hp, h => by
    simp only [Comps.each, Bool.and_eq_true] at hf ho
    simp only [Comps.setsOk, Bool.and_eq_true] at hs
    simp only [odecComps] at h
    split at h
    · rename_i v ws hv hws
      simp only [Option.some.injEq] at h
      subst h
      have := odecComps_size hK hB cs [] ws hf.2 hs.2 ho.2 (openOk_tail hc) hp hws
      have := missing_room (K := K) (vs := ws) hv hc
      simp only [OVals.length, Comps.length]; omega
    · simp at h
  | .cons fld t cs, x :: xs, vs, hf, hs, ho, hc, hp, h => by
    simp only [Comps.each, Bool.and_eq_true] at hf ho
    simp only [Comps.setsOk, Bool.and_eq_true] at hs
    simp only [odecComps] at h
    split at h
    · split at h
      · rename_i v ws hv hws
        simp only [Option.some.injEq] at h
        subst h
        have e1 := odecT_size hK hB t x v hf.1 hs.1 ho.1 (hp x (by simp)) hv
        have := odecComps_size hK hB cs xs ws hf.2 hs.2 ho.2 (openOk_tail hc) (fun y hy => hp y (by simp [hy])) hws
        have := missing_tail fld t cs
        have := present_room (f := fld) (t := t) (cs := cs) (vs := ws) e1
        simp only [OVals.length, Comps.length, totalE, Nat.mul_add]; omega
      · simp at h
    · split at h
      · rename_i v ws hv hws
        simp only [Option.some.injEq] at h
        subst h
        have := odecComps_size hK hB cs (x :: xs) ws hf.2 hs.2 ho.2 (openOk_tail hc) hp hws
        have := missing_room (K := K) (vs := ws) hv hc
        simp only [OVals.length, Comps.length]; omega
      · simp at h
theorem odecSet_size {K : Nat} {D : Registry} {f : Ty → Bytes → Option OVal} (hK : 2 ≤ K) (hB : Bounded K D f) :
    ∀ (cs : Comps) (xs : List Elt) (vs : OVals), cs.each (Ty.within K) = true → cs.setsOk = true → cs.pairOk = true →
    cs.each Ty.openOk = true → cs.openOk = true → (∀ x ∈ xs, Framed x.tlv) → odecSet D f cs xs = some vs →
    roomC K cs vs ≤ K * totalE xs + cs.blank ∧ vs.length = cs.length
  | .nil, xs, vs, _, _, _, _, _, _, h => by
    simp only [odecSet, Option.some.injEq] at h
    subst h
    simp [roomC, OVals.length, Comps.length]
  | .cons fld t cs, xs, vs, hf, hs, ha, ho, hc, hp, h => by
    simp only [Comps.each, Bool.and_eq_true] at hf ho
    simp only [Comps.setsOk, Bool.and_eq_true] at hs
    simp only [Comps.pairOk, Bool.and_eq_true] at ha
    simp only [odecSet] at h
    split at h
    · rename_i ws us hws hus
      rw [← odecSet_filter (fun x => cs.matches x.tlv) cs xs (fun _ h => h)] at hus
      have ih := odecSet_size hK hB cs _ us hf.2 hs.2 ha.2 ho.2 (openOk_tail hc) (fun x hx => hp x (List.mem_filter.1 hx).1) hus
      have ap := Nat.mul_le_mul_left K (totalE_apart (fun x => t.matches x.tlv) (fun x => cs.matches x.tlv) xs (fun x hx => Ty.disjointAll_matches t x.tlv cs ha.1 hx))
      rw [Nat.mul_add] at ap
      have := missing_tail fld t cs
      split at h
      · rename_i w hw
        simp only [Option.some.injEq] at h
        subst h
        have e : ∀ y ∈ xs.filter (fun x => t.matches x.tlv), ∀ v, odecT D f t y = some v → v.size ≤ K * y.tlv.raw.length ∧ v.room K ≤ K * y.tlv.raw.length :=
          fun y hy v hv => odecT_size hK hB t y v hf.1 hs.1 ho.1 (hp y (List.mem_filter.1 hy).1) hv
        have e1 := totalE_last (odecT D f t) OVal.size K _ ws w hws hw (fun y hy v hv => (e y hy v hv).1)
        have e2 := totalE_last (odecT D f t) (OVal.room K) K _ ws w hws hw (fun y hy v hv => (e y hy v hv).2)
        have := present_room (f := fld) (t := t) (cs := cs) (vs := us) ⟨e1, e2⟩
        simp only [OVals.length, Comps.length]; omega
      · split at h
        · rename_i w hm
          simp only [Option.some.injEq] at h
          subst h
          have := missing_room (K := K) (vs := us) hm hc
          simp only [OVals.length, Comps.length]; omega
        · simp at h
    · simp at h
theorem odecAlt_size {K : Nat} {D : Registry} {f : Ty → Bytes → Option OVal} (hK : 2 ≤ K) (hB : Bounded K D f) :
    ∀ (cs : Comps) (i : Nat) (x : Elt) (v : OVal), cs.each (Ty.within K) = true → cs.setsOk = true → cs.each Ty.openOk = true →
    Framed x.tlv → odecAlt D f cs i x = some v → v.size ≤ K * x.tlv.raw.length ∧ v.room K ≤ K * x.tlv.raw.length
  | .nil, i, x, v, _, _, _, _, h => by simp [odecAlt] at h
  | .cons fld t cs, i, x, v, hf, hs, ho, hp, h => by
    simp only [Comps.each, Bool.and_eq_true] at hf ho
    simp only [Comps.setsOk, Bool.and_eq_true] at hs
    simp only [odecAlt] at h
    split at h
    · split at h
      · rename_i w hw
        simp only [Option.some.injEq] at h
        subst h
        have := odecT_size hK hB t x w hf.1 hs.1 ho.1 hp hw
        simp only [OVal.size, OVal.room]; omega
      · simp at h
    · exact odecAlt_size hK hB cs (i + 1) x v hf.2 hs.2 ho.2 hp h
end

theorem odecode_size {K : Nat} {D : Registry} (hK : 2 ≤ K)
    (hD : ∀ m k u, D m k = some u → u.each (Ty.within K) = true ∧ u.setsOk = true ∧ u.each Ty.openOk = true) :
    ∀ (n : Nat) (t : Ty) (b : Bytes) (v : OVal) (r : Bytes), t.each (Ty.within K) = true → t.setsOk = true →
    t.each Ty.openOk = true → odecode D n t b = some (v, r) → v.size + K * r.length ≤ K * b.length
  | 0, _, _, _, _, _, _, _, h => by simp [odecode] at h
  | n + 1, t, b, v, r, h1, h2, h3, h => by
    simp only [odecode] at h
    split at h
    · simp at h
    · rename_i x rest hx
      split at h
      · simp at h
      · rename_i w hw
        simp only [Option.some.injEq, Prod.mk.injEq] at h
        obtain ⟨rfl, rfl⟩ := h
        have hB : Bounded K D (fun u c => (odecode D n u c).map Prod.fst) := by
          intro m k u c v hu hv
          obtain ⟨⟨v', r'⟩, h4, rfl⟩ := Option.map_eq_some_iff.1 hv
          obtain ⟨g1, g2, g3⟩ := hD m k u hu
          have := odecode_size hK hD n u c v' r' g1 g2 g3 h4
          show v'.size ≤ _
          omega
        have e := (odecT_size hK hB t x w h1 h2 h3 (readElt_framed hx).1 hw).1
        rw [(readElt_raw b x rest hx).1, List.length_append, Nat.mul_add]
        omega

end BerOpen
end Asn1
end Verif
