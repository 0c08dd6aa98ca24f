import Verif.Asn1.Size

/-! The same with open types: opening a field replaces its octets by a value that is no larger than the bound for them. -/

namespace Verif
namespace Asn1

/-- What the elements of a list of open fields may grow to. -/
def OVals.room (K : Nat) : OVals → Nat
  | .nil => 0
  | .cons (.leaf (.octets b)) vs => K * b.length + vs.room K
  | .cons _ vs => vs.room K

/-- What an open field may grow to. -/
def OVal.room (K : Nat) : OVal → Nat
  | .leaf (.octets b) => K * b.length
  | .list vs => 1 + vs.room K
  | _ => 0

/-- Size of the components, open fields counted with what they may grow to. -/
def roomC (K : Nat) : Comps → OVals → Nat
  | .cons f _ cs, .cons v vs => (if f.openType.isSome then max v.size (v.room K) else v.size) + roomC K cs vs
  | _, _ => 0

/-- `f` keeps the bound on the types of the registry. -/
def Bounded (K : Nat) (D : Registry) (f : Ty → Bytes → Option OVal) : Prop :=
  ∀ m k u c v, D m k = some u → f u c = some v → v.size ≤ K * c.length

theorem openOne_size {K : Nat} {f : Ty → Bytes → Option OVal} {u : Ty} (h : ∀ c v, f u c = some v → v.size ≤ K * c.length)
    {v w : OVal} (ho : openOne f u v = some w) : ∃ b, v = .leaf (.octets b) ∧ w.size ≤ K * b.length := by
  unfold openOne at ho
  split at ho
  · rename_i b
    obtain ⟨w', h1, rfl⟩ := Option.map_eq_some_iff.1 ho
    exact ⟨b, rfl, by simpa only [OVal.size] using h b w' h1⟩
  · simp at ho

theorem openAllElems_size {K : Nat} {f : Ty → Bytes → Option OVal} {u : Ty} (h : ∀ c v, f u c = some v → v.size ≤ K * c.length) :
    ∀ (vs : OVals) (ws : List OVal), mapOpt (openOne f u) vs.toList = some ws → (OVals.ofList ws).size ≤ vs.room K
  | .nil, ws, hm => by simp [OVals.toList, mapOpt] at hm; subst hm; simp [OVals.ofList, OVals.size]
  | .cons v vs, ws, hm => by
    simp only [OVals.toList, mapOpt] at hm
    split at hm
    · rename_i w ws' h1 h2
      simp at hm; subst hm
      obtain ⟨b, rfl, hb⟩ := openOne_size h h1
      have := openAllElems_size h vs ws' h2
      simp only [OVals.ofList, OVals.size, OVals.room]; omega
    · simp at hm

theorem openVal_size {K : Nat} {f : Ty → Bytes → Option OVal} {u : Ty} (h : ∀ c v, f u c = some v → v.size ≤ K * c.length)
    {v w : OVal} (ho : openVal f u v = some w) : w.size ≤ v.room K := by
  unfold openVal at ho
  split at ho
  · rename_i vs
    obtain ⟨ws, h1, rfl⟩ := Option.map_eq_some_iff.1 ho
    have := openAllElems_size h vs ws h1
    simp only [OVal.size, OVal.room]; omega
  · obtain ⟨b, rfl, hb⟩ := openOne_size h ho
    exact hb

theorem openField_size {K : Nat} {D : Registry} {f : Ty → Bytes → Option OVal} (hf : Bounded K D f) {ds : Comps} {us : OVals}
    {fld : Field} {v w : OVal} (h : openField D f ds us fld v = some w) :
    w.size ≤ if fld.openType.isSome then max v.size (v.room K) else v.size := by
  unfold openField at h
  split at h
  · rename_i ho
    simp at h; subst h; simp [ho]
  · rename_i ot ho
    simp only [ho, Option.isSome_some, if_true]
    split at h
    · simp at h; subst h; exact Nat.le_max_left ..
    · split at h
      · simp at h
      · rename_i g hg
        split at h
        · simp at h; subst h; exact Nat.le_max_left ..
        · rename_i u hu
          exact Nat.le_trans (openVal_size (fun c v hv => hf _ _ u c v hu hv) h) (Nat.le_max_right ..)

theorem openAll_size {K : Nat} {D : Registry} {f : Ty → Bytes → Option OVal} (hf : Bounded K D f) {ds : Comps} {us : OVals} :
    ∀ (cs : Comps) (vs ws : OVals), openAll D f ds us cs vs = some ws → ws.size ≤ roomC K cs vs
  | .nil, _, ws, h => by simp [openAll] at h; subst h; simp [OVals.size]
  | .cons _ _ _, .nil, ws, h => by simp [openAll] at h; subst h; simp [OVals.size]
  | .cons fld t cs, .cons v vs, ws, h => by
    simp only [openAll] at h
    split at h
    · rename_i w ws' h1 h2
      simp at h; subst h
      have := openField_size hf h1
      have := openAll_size hf cs vs ws' h2
      simp only [OVals.size, roomC]; omega
    · simp at h

theorem size_roomC {K : Nat} : ∀ (cs : Comps) (vs : OVals), vs.length = cs.length → vs.size ≤ roomC K cs vs
  | .nil, .nil, _ => by simp [OVals.size]
  | .nil, .cons _ _, h => by simp [OVals.length, Comps.length] at h
  | .cons _ _ _, .nil, _ => by simp [OVals.size]
  | .cons f t cs, .cons v vs, h => by
    simp only [OVals.length, Comps.length, Nat.add_right_cancel_iff] at h
    have := size_roomC (K := K) cs vs h
    simp only [OVals.size, roomC]
    split
    · have := Nat.le_max_left v.size (v.room K); omega
    · omega

theorem mapOpt_osize {g : TLV → Option OVal} {K : Nat} : ∀ (xs : List TLV) (vs : List OVal), mapOpt g xs = some vs →
    (∀ x ∈ xs, ∀ v, g x = some v → v.size ≤ K * x.raw.length ∧ v.room K ≤ K * x.raw.length) →
    (OVals.ofList vs).size ≤ K * total xs ∧ (OVals.ofList vs).room K ≤ K * total xs
  | [], vs, h, _ => by simp [mapOpt] at h; subst h; simp [OVals.ofList, OVals.size, OVals.room]
  | x :: xs, vs, h, hg => by
    simp only [mapOpt] at h
    split at h
    · rename_i v vs' h1 h2
      simp at h; subst h
      obtain ⟨e1, e3⟩ := hg x (by simp) v h1
      obtain ⟨e2, e4⟩ := mapOpt_osize xs vs' h2 (fun y hy => hg y (by simp [hy]))
      simp only [OVals.ofList, OVals.size, total, Nat.mul_add]
      refine ⟨by omega, ?_⟩
      unfold OVals.room
      split
      · rename_i heq; cases heq
      · rename_i b us heq
        cases heq
        simp only [OVal.room] at e3
        omega
      · rename_i heq; cases heq; omega
    · simp at h

theorem missing_room {K : Nat} {f : Field} {t : Ty} {cs : Comps} {vs : OVals} {v : Val} (h : f.mode.missing = some v)
    (ho : (Comps.cons f t cs).openOk = true) :
    roomC K (.cons f t cs) (.cons (.leaf v) vs) + cs.blank ≤ (Comps.cons f t cs).blank + roomC K cs vs := by
  have h1 := missing_size (t := t) (cs := cs) h
  simp only [roomC]
  split
  · rename_i hi
    simp only [Comps.openOk, Bool.and_eq_true, Bool.or_eq_true, Option.isNone_iff_eq_none] at ho
    cases hm : f.mode with
    | req => simp [hm, Mode.missing] at h
    | opt =>
      simp [hm, Mode.missing] at h; subst h
      simp only [OVal.size, OVal.room] at *; omega
    | dflt d =>
      simp only [hm, Mode.isReq, Mode.isOpt, Bool.false_eq_true, or_false] at ho
      rw [ho.1] at hi; simp at hi
  · simp only [OVal.size] at *; omega

theorem present_room {K n : Nat} {f : Field} {t : Ty} {cs : Comps} {v : OVal} {vs : OVals}
    (h : v.size ≤ K * n ∧ v.room K ≤ K * n) : roomC K (.cons f t cs) (.cons v vs) ≤ K * n + roomC K cs vs := by
  simp only [roomC]
  split <;> omega

theorem odecSet_filter {D : Registry} {f : Ty → Bytes → Option OVal} (q : TLV → Bool) : ∀ (cs : Comps) (xs : List TLV),
    (∀ x, cs.matches x = true → q x = true) → odecSet D f cs (xs.filter q) = odecSet D f cs xs
  | .nil, xs, _ => by simp [odecSet]
  | .cons fld t cs, xs, h => by
    have e : (xs.filter q).filter t.matches = xs.filter t.matches := by
      rw [List.filter_filter]
      apply List.filter_congr
      intro x _
      cases ht : t.matches x with
      | false => rfl
      | true => simp [h x (by simp [Comps.matches, ht])]
    simp only [odecSet, e]
    rw [odecSet_filter q cs xs (fun x hx => h x (by simp [Comps.matches, hx]))]

mutual
theorem odecT_size {K : Nat} {D : Registry} {f : Ty → Bytes → Option OVal} (hK : 2 ≤ K) (hB : Bounded K D f) :
    ∀ (t : Ty) (x : TLV) (v : OVal), t.each (Ty.within K) = true → t.setsOk = true → t.each Ty.openOk = true → Framed x →
    odecT D f t x = some v → v.size ≤ K * x.raw.length ∧ v.room K ≤ K * x.raw.length
  | .prim k a, x, v, _, _, _, hp, h => by
    obtain ⟨w, h0, rfl⟩ := Option.map_eq_some_iff.1 (by simpa only [odecT] using h)
    have h1 := decPrimT_size h0 hp.proper
    have hp' := hp
    unfold Framed at hp
    have : 2 * x.raw.length ≤ K * x.raw.length := Nat.mul_le_mul_right _ hK
    refine ⟨by simp only [OVal.size]; omega, ?_⟩
    unfold OVal.room
    split
    · rename_i b heq
      cases heq
      exact Nat.mul_le_mul_left _ (decPrimT_short h0 hp'.proper)
    · rename_i heq; cases heq
    · omega
  | .seq s a cs, x, v, hf, hs, ho, hp, h => by
    simp only [Ty.each, Bool.and_eq_true, Ty.within, decide_eq_true_eq] at hf
    simp only [Ty.each, Bool.and_eq_true, Ty.openOk] at ho
    simp only [Ty.setsOk, Bool.and_eq_true] at hs
    simp only [odecT] at h
    split at h
    · simp at h
    · rename_i xs hxs
      have hw := innerItems_framed hxs
      have ht := innerItems_total hxs hp
      split at h
      · simp at h
      · rename_i vs hvs
        have key : roomC K cs vs ≤ K * total xs + cs.blank ∧ vs.length = cs.length := by
          cases s with
          | true =>
            simp only [if_true] at hvs
            split at hvs
            · simp only [Bool.not_true, Bool.false_or] at hs
              exact odecSet_size hK hB cs xs vs hf.2 hs.2 hs.1 ho.2 ho.1 (fun y hy => hw y hy) hvs
            · simp at hvs
          | false =>
            simp only [Bool.false_eq_true, if_false] at hvs
            exact odecComps_size hK hB cs xs vs hf.2 hs.2 ho.2 ho.1 (fun y hy => hw y hy) hvs
        have e := Nat.mul_le_mul_left K ht
        rw [Nat.mul_add] at e
        have h1 := hf.1
        have fin : ∀ us : OVals, us.size ≤ roomC K cs vs → v = .record us →
            v.size ≤ K * x.raw.length ∧ v.room K ≤ K * x.raw.length := by
          intro us hu hv
          subst hv
          simp only [OVal.size, OVal.room]
          omega
        split at h
        · split at h
          · simp only [Option.some.injEq] at h
            exact fin vs (size_roomC cs vs key.2) h.symm
          · simp at h
        · obtain ⟨us, h2, h3⟩ := Option.map_eq_some_iff.1 h
          exact fin us (openAll_size hB cs vs us h2) h3.symm
  | .of s a t, x, v, hf, hs, ho, hp, h => by
    simp only [Ty.each, Bool.and_eq_true] at hf ho
    simp only [Ty.setsOk] at hs
    simp only [odecT] at h
    split at h
    · simp at h
    · rename_i xs hxs
      have hw := innerItems_framed hxs
      have ht := innerItems_total hxs hp
      split at h
      · simp at h
      · rename_i vs hvs
        simp only [Option.some.injEq] at h
        subst h
        have e := mapOpt_osize xs vs hvs (fun y hy w hw' => odecT_size hK hB t y w hf.2 hs ho.2 (hw y hy) hw')
        have := Nat.mul_le_mul_left K ht
        rw [Nat.mul_add] at this
        simp only [OVal.size, OVal.room]
        omega
  | .choice a cs, x, v, hf, hs, ho, hp, h => by
    simp only [Ty.each, Bool.and_eq_true] at hf ho
    simp only [Ty.setsOk] at hs
    simp only [odecT] at h
    split at h
    · exact odecAlt_size hK hB cs 0 x v hf.2 hs ho.2 hp h
    · split at h
      · simp at h
      · rename_i y hy
        obtain ⟨h1, h2⟩ := unwrap_framed _ x y hy hp
        split at h
        · simp at h
        · rename_i z r hz
          obtain ⟨h3, h4⟩ := readTLV_framed hz
          have e := odecAlt_size hK hB cs 0 z v hf.2 hs ho.2 h3 h
          unfold Framed at h1
          have := Nat.mul_le_mul_left K (show z.raw.length ≤ x.raw.length by omega)
          omega
  | .bad _, x, v, _, _, _, _, h => by simp [odecT] at h
theorem odecComps_size {K : Nat} {D : Registry} {f : Ty → Bytes → Option OVal} (hK : 2 ≤ K) (hB : Bounded K D f) :
    ∀ (cs : Comps) (xs : List TLV) (vs : OVals), cs.each (Ty.within K) = true → cs.setsOk = true → cs.each Ty.openOk = true →
    cs.openOk = true → (∀ x ∈ xs, Framed x) → odecComps D f cs xs = some vs →
    roomC K cs vs ≤ K * total xs + cs.blank ∧ vs.length = cs.length
  | .nil, [], vs, _, _, _, _, _, h => by
    simp only [odecComps, Option.some.injEq] at h
    subst h
    simp [roomC, OVals.length, Comps.length]
  | .nil, _ :: _, vs, _, _, _, _, _, h => by simp [odecComps] at h
  | .cons fld t cs, [], vs, hf, hs, ho, hc, hp, h => by
    simp only [Comps.each, Bool.and_eq_true] at hf ho
    simp only [Comps.setsOk, Bool.and_eq_true] at hs
    simp only [odecComps] at h
    split at h
    · rename_i v ws hv hws
      simp only [Option.some.injEq] at h
      subst h
      have := odecComps_size hK hB cs [] ws hf.2 hs.2 ho.2 (openOk_tail hc) hp hws
      have := missing_room (K := K) (vs := ws) hv hc
      simp only [OVals.length, Comps.length]; omega
    · simp at h
  | .cons fld t cs, x :: xs, vs, hf, hs, ho, hc, hp, h => by
    simp only [Comps.each, Bool.and_eq_true] at hf ho
    simp only [Comps.setsOk, Bool.and_eq_true] at hs
    simp only [odecComps] at h
    split at h
    · split at h
      · rename_i v ws hv hws
        simp only [Option.some.injEq] at h
        subst h
        have e1 := odecT_size hK hB t x v hf.1 hs.1 ho.1 (hp x (by simp)) hv
        have := odecComps_size hK hB cs xs ws hf.2 hs.2 ho.2 (openOk_tail hc) (fun y hy => hp y (by simp [hy])) hws
        have := missing_tail fld t cs
        have := present_room (f := fld) (t := t) (cs := cs) (vs := ws) e1
        simp only [OVals.length, Comps.length, total, Nat.mul_add]; omega
      · simp at h
    · split at h
      · rename_i v ws hv hws
        simp only [Option.some.injEq] at h
        subst h
        have := odecComps_size hK hB cs (x :: xs) ws hf.2 hs.2 ho.2 (openOk_tail hc) hp hws
        have := missing_room (K := K) (vs := ws) hv hc
        simp only [OVals.length, Comps.length]; omega
      · simp at h
theorem odecSet_size {K : Nat} {D : Registry} {f : Ty → Bytes → Option OVal} (hK : 2 ≤ K) (hB : Bounded K D f) :
    ∀ (cs : Comps) (xs : List TLV) (vs : OVals), cs.each (Ty.within K) = true → cs.setsOk = true → cs.pairOk = true →
    cs.each Ty.openOk = true → cs.openOk = true → (∀ x ∈ xs, Framed x) → odecSet D f cs xs = some vs →
    roomC K cs vs ≤ K * total xs + cs.blank ∧ vs.length = cs.length
  | .nil, xs, vs, _, _, _, _, _, _, h => by
    simp only [odecSet, Option.some.injEq] at h
    subst h
    simp [roomC, OVals.length, Comps.length]
  | .cons fld t cs, xs, vs, hf, hs, ha, ho, hc, hp, h => by
    simp only [Comps.each, Bool.and_eq_true] at hf ho
    simp only [Comps.setsOk, Bool.and_eq_true] at hs
    simp only [Comps.pairOk, Bool.and_eq_true] at ha
    simp only [odecSet] at h
    split at h
    · rename_i ws us hws hus
      rw [← odecSet_filter cs.matches cs xs (fun _ h => h)] at hus
      have ih := odecSet_size hK hB cs _ us hf.2 hs.2 ha.2 ho.2 (openOk_tail hc) (fun x hx => hp x (List.mem_filter.1 hx).1) hus
      have ap := Nat.mul_le_mul_left K (total_apart t.matches cs.matches xs (fun x hx => Ty.disjointAll_matches t x cs ha.1 hx))
      rw [Nat.mul_add] at ap
      have := missing_tail fld t cs
      split at h
      · rename_i w hw
        simp only [Option.some.injEq] at h
        subst h
        have e : ∀ y ∈ xs.filter t.matches, ∀ v, odecT D f t y = some v → v.size ≤ K * y.raw.length ∧ v.room K ≤ K * y.raw.length :=
          fun y hy v hv => odecT_size hK hB t y v hf.1 hs.1 ho.1 (hp y (List.mem_filter.1 hy).1) hv
        have e1 := total_last (odecT D f t) OVal.size K _ ws w hws hw (fun y hy v hv => (e y hy v hv).1)
        have e2 := total_last (odecT D f t) (OVal.room K) K _ ws w hws hw (fun y hy v hv => (e y hy v hv).2)
        have := present_room (f := fld) (t := t) (cs := cs) (vs := us) ⟨e1, e2⟩
        simp only [OVals.length, Comps.length]; omega
      · split at h
        · rename_i w hm
          simp only [Option.some.injEq] at h
          subst h
          have := missing_room (K := K) (vs := us) hm hc
          simp only [OVals.length, Comps.length]; omega
        · simp at h
    · simp at h
theorem odecAlt_size {K : Nat} {D : Registry} {f : Ty → Bytes → Option OVal} (hK : 2 ≤ K) (hB : Bounded K D f) :
    ∀ (cs : Comps) (i : Nat) (x : TLV) (v : OVal), cs.each (Ty.within K) = true → cs.setsOk = true → cs.each Ty.openOk = true →
    Framed x → odecAlt D f cs i x = some v → v.size ≤ K * x.raw.length ∧ v.room K ≤ K * x.raw.length
  | .nil, i, x, v, _, _, _, _, h => by simp [odecAlt] at h
  | .cons fld t cs, i, x, v, hf, hs, ho, hp, h => by
    simp only [Comps.each, Bool.and_eq_true] at hf ho
    simp only [Comps.setsOk, Bool.and_eq_true] at hs
    simp only [odecAlt] at h
    split at h
    · split at h
      · rename_i w hw
        simp only [Option.some.injEq] at h
        subst h
        have := odecT_size hK hB t x w hf.1 hs.1 ho.1 hp hw
        simp only [OVal.size, OVal.room]; omega
      · simp at h
    · exact odecAlt_size hK hB cs (i + 1) x v hf.2 hs.2 ho.2 hp h
end

theorem odecode_size {K : Nat} {D : Registry} (hK : 2 ≤ K)
    (hD : ∀ m k u, D m k = some u → u.each (Ty.within K) = true ∧ u.setsOk = true ∧ u.each Ty.openOk = true) :
    ∀ (n : Nat) (t : Ty) (b : Bytes) (v : OVal) (r : Bytes), t.each (Ty.within K) = true → t.setsOk = true →
    t.each Ty.openOk = true → odecode D n t b = some (v, r) → v.size + K * r.length ≤ K * b.length
  | 0, _, _, _, _, _, _, _, h => by simp [odecode] at h
  | n + 1, t, b, v, r, h1, h2, h3, h => by
    simp only [odecode] at h
    split at h
    · simp at h
    · rename_i x rest hx
      split at h
      · simp at h
      · rename_i w hw
        simp only [Option.some.injEq, Prod.mk.injEq] at h
        obtain ⟨rfl, rfl⟩ := h
        have hB : Bounded K D (fun u c => (odecode D n u c).map Prod.fst) := by
          intro m k u c v hu hv
          obtain ⟨⟨v', r'⟩, h4, rfl⟩ := Option.map_eq_some_iff.1 hv
          obtain ⟨g1, g2, g3⟩ := hD m k u hu
          have := odecode_size hK hD n u c v' r' g1 g2 g3 h4
          show v'.size ≤ _
          omega
        have e := (odecT_size hK hB t x w h1 h2 h3 (readTLV_framed hx).1 hw).1
        rw [(readTLV_suffix b x rest hx).1, List.length_append, Nat.mul_add]
        omega

theorem decode_size {K : Nat} (hK : 2 ≤ K) (t : Ty) (b : Bytes) (v : Val) (r : Bytes) (h1 : t.each (Ty.within K) = true)
    (h2 : t.setsOk = true) (h : decode t b = some (v, r)) : v.size + K * r.length ≤ K * b.length := by
  simp only [decode] at h
  split at h
  · simp at h
  · rename_i x rest hx
    split at h
    · simp at h
    · rename_i w hw
      simp only [Option.some.injEq, Prod.mk.injEq] at h
      obtain ⟨rfl, rfl⟩ := h
      have e := decT_size hK t x w h1 h2 (readTLV_framed hx).1 hw
      rw [(readTLV_suffix b x rest hx).1, List.length_append, Nat.mul_add]
      omega

end Asn1
end Verif
