import Verif.Asn1.BasicSound
import Verif.Asn1.BasicAdmits
import Verif.Asn1.Depth
import Verif.Asn1.SizeOpen

/-! # How large what the BER decoder returns can be -/

namespace Verif
namespace Asn1

/-! ## Elements -/

theorem whole_framed {x : Elt} (h : x.whole) : Framed x.tlv := by
  have hi : ∀ {c k n i}, Ber.Identifier c k n i → 1 ≤ i.length := by
    intro c k n i hi
    cases hi <;> simp
  unfold Elt.whole Basic.Element at h
  unfold Framed
  split at h
  · obtain ⟨i, es, h1, _, _, _, h2⟩ := h
    have := hi h1
    rw [h2]
    simp [Basic.eoc]
    omega
  · obtain ⟨i, l, h1, h2, h3⟩ := h
    have := hi h1
    have : 1 ≤ l.length := by cases h2 <;> simp
    rw [h3]
    simp
    omega

theorem elts_framed {b : Bytes} {xs : List Elt} (h : elts b = some xs) : ∀ y ∈ xs, Framed y.tlv :=
  fun y hy => whole_framed ((elts_raw b xs h).2 y hy)

theorem inner_framed {x z : Elt} (h : x.inner = some z) : Framed z.tlv ∧ z.tlv.raw.length ≤ x.tlv.content.length := by
  obtain ⟨h1, h2⟩ := inner_raw x z h
  refine ⟨whole_framed h1, ?_⟩
  rcases h2 with ⟨_, junk, h2⟩ | ⟨_, h2⟩ <;> rw [h2]
  · simp
  · exact Nat.le_refl _

theorem unwrapE_framed : ∀ (ts : List Tag) (x y : Elt), unwrapE ts x = some y → Framed x.tlv →
    Framed y.tlv ∧ y.tlv.raw.length ≤ x.tlv.raw.length
  | [], _, _, h, _ => by simp [unwrapE] at h
  | [t], x, y, h, hp => by
    simp only [unwrapE] at h
    split at h
    · simp at h; subst h; exact ⟨hp, Nat.le_refl _⟩
    · simp at h
  | t :: t' :: ts, x, y, h, hp => by
    simp only [unwrapE] at h
    split at h
    · split at h
      · rename_i z hz
        obtain ⟨h1, h2⟩ := inner_framed hz
        obtain ⟨h3, h4⟩ := unwrapE_framed (t' :: ts) z y h h1
        unfold Framed at hp
        exact ⟨h3, by omega⟩
      · simp at h
    · simp at h

/-- Octets of a list of elements. -/
def totalE : List Elt → Nat
  | [] => 0
  | x :: xs => x.tlv.raw.length + totalE xs

theorem totalE_eq : ∀ xs : List Elt, totalE xs = (xs.map (·.tlv.raw)).flatten.length
  | [] => rfl
  | x :: xs => by simp [totalE, totalE_eq xs]

theorem elts_total {b : Bytes} {xs : List Elt} (h : elts b = some xs) : totalE xs = b.length := by
  rw [totalE_eq, ← (elts_raw b xs h).1]

theorem innerElts_framed {a : Attrs} {x : Elt} {xs : List Elt} (h : innerElts a x = some xs) : ∀ y ∈ xs, Framed y.tlv :=
  fun y hy => whole_framed (innerElts_whole a x xs h y hy)

theorem innerElts_total {a : Attrs} {x : Elt} {xs : List Elt} (h : innerElts a x = some xs) (hp : Framed x.tlv) :
    totalE xs + 2 ≤ x.tlv.raw.length := by
  simp only [innerElts] at h
  split at h
  · simp at h
  · rename_i y hy
    obtain ⟨h1, h2⟩ := unwrapE_framed _ x y hy hp
    unfold Framed at h1
    split at h
    · rw [elts_total h]; omega
    · simp at h

/-! ## Simple types -/

theorem bdecPrim_size {k : Prim} {b : Bytes} {v : Val} (h : bdecPrim k b = some v) : v.size ≤ b.length + 2 := by
  by_cases hk : k = .boolean
  · subst hk
    simp only [bdecPrim, Option.some.injEq] at h
    subst h
    split
    · show 1 + octetsOf 0 ≤ _
      have : octetsOf 0 = 0 := by decide
      omega
    · show 1 + octetsOf 1 ≤ _
      have : octetsOf 1 = 1 := by decide
      omega
  · rw [bdecPrim_plain k b hk] at h
    exact decPrim_size h

theorem octets_total : ∀ (xs : List Elt), (∀ y ∈ xs, Framed y.tlv) → (xs.flatMap (·.tlv.content)).length ≤ totalE xs
  | [], _ => by simp [totalE]
  | x :: xs, h => by
    have ih := octets_total xs (fun y hy => h y (List.mem_cons_of_mem _ hy))
    have := h x (List.mem_cons_self ..)
    unfold Framed at this
    simp only [List.flatMap_cons, List.length_append, totalE]
    omega

theorem bits_total : ∀ (xs : List Elt) (ps : List (List Bool)), (∀ y ∈ xs, Framed y.tlv) →
    mapOpt (fun x : Elt => decBits x.tlv.content) xs = some ps → ps.flatten.length ≤ 8 * totalE xs
  | [], ps, _, h => by simp [mapOpt] at h; subst h; simp [totalE]
  | x :: xs, ps, hf, h => by
    simp only [mapOpt] at h
    split at h
    · rename_i p qs h1 h2
      simp only [Option.some.injEq] at h
      subst h
      have ih := bits_total xs qs (fun y hy => hf y (List.mem_cons_of_mem _ hy)) h2
      have h3 := hf x (List.mem_cons_self ..)
      unfold Framed at h3
      have h4 : (Val.bits p).size ≤ x.tlv.content.length + 2 := decPrim_size (k := .bitString) (b := x.tlv.content) (by simp [decPrim, h1])
      simp only [Val.size] at h4
      simp only [List.flatten_cons, List.length_append, totalE]
      omega
    · simp at h

theorem joined_size {k : Prim} {ind : Bool} {xs : List Elt} {v : Val} (hf : ∀ y ∈ xs, Framed y.tlv) (h : joined k ind xs = some v) :
    v.size ≤ totalE xs + 2 := by
  cases k <;> simp only [joined] at h <;> try (cases h; done)
  · split at h
    · simp only [Option.map_eq_some_iff] at h
      obtain ⟨ps, h1, rfl⟩ := h
      have := bits_total xs ps hf h1
      simp only [Val.size]
      omega
    · cases h
  · split at h
    · simp only [Option.some.injEq] at h
      subst h
      have := octets_total xs hf
      simp only [Val.size]
      omega
    · cases h

theorem bdecPrimT_size {k : Prim} {a : Attrs} {x : Elt} {v : Val} (h : bdecPrimT k a x = some v) (hp : Framed x.tlv) :
    v.size ≤ x.tlv.raw.length + 1 := by
  simp only [bdecPrimT] at h
  split at h
  · split at h
    · simp at h
    · exact decPrimT_size h hp.proper
  · split at h
    · simp at h
    · rename_i y hy
      obtain ⟨h1, h2⟩ := unwrapE_framed _ x y hy hp
      unfold Framed at h1
      split at h
      · simp at h
      · rename_i w hw
        split at h
        · simp only [Option.some.injEq] at h
          subst h
          split at hw
          · rw [Option.bind_eq_some_iff] at hw
            obtain ⟨xs, h3, h4⟩ := hw
            have := joined_size (elts_framed h3) h4
            rw [elts_total h3] at this
            omega
          · have := bdecPrim_size hw
            omega
        · simp at h

/-! ## Constructed types -/

theorem totalE_apart (p q : Elt → Bool) : ∀ (xs : List Elt), (∀ x, p x = true → q x = false) →
    totalE (xs.filter p) + totalE (xs.filter q) ≤ totalE xs
  | [], _ => by simp [totalE]
  | x :: xs, h => by
    have ih := totalE_apart p q xs h
    cases hp : p x <;> cases hq : q x <;> simp only [List.filter, hp, hq, totalE] <;> try omega
    rw [h x hp] at hq; cases hq

theorem totalE_last {α : Type} (g : Elt → Option α) (sz : α → Nat) (K : Nat) : ∀ (xs : List Elt) (ws : List α) (w : α),
    mapOpt g xs = some ws → ws.getLast? = some w → (∀ x ∈ xs, ∀ v, g x = some v → sz v ≤ K * x.tlv.raw.length) →
    sz w ≤ K * totalE xs := by
  intro xs ws w h hl hg
  obtain ⟨y, h3, h4⟩ := mapOpt_mem h w (List.mem_of_getLast? hl)
  have h5 := hg y h3 w h4
  refine Nat.le_trans h5 (Nat.mul_le_mul_left _ ?_)
  clear h hg h5
  induction xs with
  | nil => simp at h3
  | cons x xs ih =>
    rcases List.mem_cons.1 h3 with rfl | h3
    · simp [totalE]
    · have := ih h3; simp only [totalE]; omega

theorem mapOpt_sizeE {g : Elt → Option Val} {K : Nat} : ∀ (xs : List Elt) (vs : List Val), mapOpt g xs = some vs →
    (∀ x ∈ xs, ∀ v, g x = some v → v.size ≤ K * x.tlv.raw.length) → (Vals.ofList vs).size ≤ K * totalE xs
  | [], vs, h, _ => by simp [mapOpt] at h; subst h; simp [Vals.ofList, Vals.size]
  | x :: xs, vs, h, hg => by
    simp only [mapOpt] at h
    split at h
    · rename_i v vs' h1 h2
      simp at h; subst h
      have e1 := hg x (by simp) v h1
      have e2 := mapOpt_sizeE xs vs' h2 (fun y hy => hg y (by simp [hy]))
      simp only [Vals.ofList, Vals.size, totalE, Nat.mul_add]; omega
    · simp at h

mutual
/-- The value made of one element. -/
theorem bdecT_size {K : Nat} (hK : 2 ≤ K) : ∀ (t : Ty) (x : Elt) (v : Val), t.each (Ty.within K) = true → t.setsOk = true →
    Framed x.tlv → bdecT t x = some v → v.size ≤ K * x.tlv.raw.length
  | .prim k a, x, v, _, _, hp, h => by
    have h1 := bdecPrimT_size h hp
    unfold Framed at hp
    have : 2 * x.tlv.raw.length ≤ K * x.tlv.raw.length := Nat.mul_le_mul_right _ hK
    omega
  | .seq s a cs, x, v, hf, hs, hp, h => by
    simp only [Ty.each, Bool.and_eq_true, Ty.within, decide_eq_true_eq] at hf
    simp only [Ty.setsOk, Bool.and_eq_true] at hs
    simp only [bdecT] at h
    split at h
    · simp at h
    · rename_i xs hxs
      have hw := innerElts_framed hxs
      have ht := innerElts_total hxs hp
      split at h
      · simp at h
      · rename_i vs hvs
        split at h
        · simp only [Option.some.injEq] at h
          subst h
          have key : vs.size ≤ K * totalE xs + cs.blank := by
            cases s with
            | true =>
              simp only [if_true] at hvs
              split at hvs
              · simp only [Bool.not_true, Bool.false_or] at hs
                exact bdecSet_size hK cs xs vs hf.2 hs.2 hs.1 (fun y hy => hw y hy) hvs
              · simp at hvs
            | false =>
              simp only [Bool.false_eq_true, if_false] at hvs
              exact bdecComps_size hK cs xs vs hf.2 hs.2 (fun y hy => hw y hy) hvs
          have := Nat.mul_le_mul_left K ht
          rw [Nat.mul_add] at this
          simp only [Val.size]
          have := hf.1
          omega
        · simp at h
  | .of s a t, x, v, hf, hs, hp, h => by
    simp only [Ty.each, Bool.and_eq_true] at hf
    simp only [Ty.setsOk] at hs
    simp only [bdecT] at h
    split at h
    · simp at h
    · rename_i xs hxs
      have hw := innerElts_framed hxs
      have ht := innerElts_total hxs hp
      split at h
      · simp at h
      · rename_i vs hvs
        simp only [Option.some.injEq] at h
        subst h
        have e := mapOpt_sizeE xs vs hvs (fun y hy w hw' => bdecT_size hK t y w hf.2 hs (hw y hy) hw')
        have := Nat.mul_le_mul_left K ht
        rw [Nat.mul_add] at this
        simp only [Val.size]
        omega
  | .choice a cs, x, v, hf, hs, hp, h => by
    simp only [Ty.each, Bool.and_eq_true] at hf
    simp only [Ty.setsOk] at hs
    simp only [bdecT] at h
    split at h
    · exact bdecAlt_size hK cs 0 x v hf.2 hs hp h
    · split at h
      · simp at h
      · rename_i y hy
        obtain ⟨h1, h2⟩ := unwrapE_framed _ x y hy hp
        split at h
        · simp at h
        · rename_i z hz
          obtain ⟨h3, h4⟩ := inner_framed hz
          have e := bdecAlt_size hK cs 0 z v hf.2 hs h3 h
          unfold Framed at h1
          exact Nat.le_trans e (Nat.mul_le_mul_left _ (by omega))
  | .bad _, x, v, _, _, _, h => by simp [bdecT] at h
theorem bdecComps_size {K : Nat} (hK : 2 ≤ K) : ∀ (cs : Comps) (xs : List Elt) (vs : Vals), cs.each (Ty.within K) = true →
    cs.setsOk = true → (∀ x ∈ xs, Framed x.tlv) → bdecComps cs xs = some vs → vs.size ≤ K * totalE xs + cs.blank
  | .nil, [], vs, _, _, _, h => by
    simp only [bdecComps, Option.some.injEq] at h
    subst h
    simp [Vals.size]
  | .nil, _ :: _, vs, _, _, _, h => by simp [bdecComps] at h
  | .cons f t cs, [], vs, hf, hs, hp, h => by
    simp only [Comps.each, Bool.and_eq_true] at hf
    simp only [Comps.setsOk, Bool.and_eq_true] at hs
    simp only [bdecComps] at h
    split at h
    · rename_i v ws hv hws
      simp only [Option.some.injEq] at h
      subst h
      have := bdecComps_size hK cs [] ws hf.2 hs.2 hp hws
      have := missing_size (t := t) (cs := cs) hv
      simp only [Vals.size]; omega
    · simp at h
  | .cons f t cs, x :: xs, vs, hf, hs, hp, h => by
    simp only [Comps.each, Bool.and_eq_true] at hf
    simp only [Comps.setsOk, Bool.and_eq_true] at hs
    simp only [bdecComps] at h
    split at h
    · split at h
      · rename_i v ws hv hws
        simp only [Option.some.injEq] at h
        subst h
        have := bdecT_size hK t x v hf.1 hs.1 (hp x (by simp)) hv
        have := bdecComps_size hK cs xs ws hf.2 hs.2 (fun y hy => hp y (by simp [hy])) hws
        have := missing_tail f t cs
        simp only [Vals.size, totalE, Nat.mul_add]; omega
      · simp at h
    · split at h
      · rename_i v ws hv hws
        simp only [Option.some.injEq] at h
        subst h
        have := bdecComps_size hK cs (x :: xs) ws hf.2 hs.2 hp hws
        have := missing_size (t := t) (cs := cs) hv
        simp only [Vals.size]; omega
      · simp at h
theorem bdecSet_size {K : Nat} (hK : 2 ≤ K) : ∀ (cs : Comps) (xs : List Elt) (vs : Vals), cs.each (Ty.within K) = true →
    cs.setsOk = true → cs.pairOk = true → (∀ x ∈ xs, Framed x.tlv) → bdecSet cs xs = some vs → vs.size ≤ K * totalE xs + cs.blank
  | .nil, xs, vs, _, _, _, _, h => by
    simp only [bdecSet, Option.some.injEq] at h
    subst h
    simp [Vals.size]
  | .cons f t cs, xs, vs, hf, hs, ha, hp, h => by
    simp only [Comps.each, Bool.and_eq_true] at hf
    simp only [Comps.setsOk, Bool.and_eq_true] at hs
    simp only [Comps.pairOk, Bool.and_eq_true] at ha
    simp only [bdecSet] at h
    split at h
    · rename_i ws us hws hus
      rw [← bdecSet_filter (fun x => cs.matches x.tlv) cs xs (fun _ h => h)] at hus
      have ih := bdecSet_size hK cs _ us hf.2 hs.2 ha.2 (fun x hx => hp x (List.mem_filter.1 hx).1) hus
      have ap := Nat.mul_le_mul_left K (totalE_apart (fun x => t.matches x.tlv) (fun x => cs.matches x.tlv) xs (fun x hx => Ty.disjointAll_matches t x.tlv cs ha.1 hx))
      rw [Nat.mul_add] at ap
      have := missing_tail f t cs
      split at h
      · rename_i w hw
        simp only [Option.some.injEq] at h
        subst h
        have := totalE_last (bdecT t) Val.size K _ ws w hws hw
          (fun y hy v hv => bdecT_size hK t y v hf.1 hs.1 (hp y (List.mem_filter.1 hy).1) hv)
        simp only [Vals.size]; omega
      · split at h
        · rename_i w hm
          simp only [Option.some.injEq] at h
          subst h
          have := missing_size (t := t) (cs := cs) hm
          simp only [Vals.size]; omega
        · simp at h
    · simp at h
theorem bdecAlt_size {K : Nat} (hK : 2 ≤ K) : ∀ (cs : Comps) (i : Nat) (x : Elt) (v : Val), cs.each (Ty.within K) = true →
    cs.setsOk = true → Framed x.tlv → bdecAlt cs i x = some v → v.size ≤ K * x.tlv.raw.length
  | .nil, i, x, v, _, _, _, h => by simp [bdecAlt] at h
  | .cons f t cs, i, x, v, hf, hs, hp, h => by
    simp only [Comps.each, Bool.and_eq_true] at hf
    simp only [Comps.setsOk, Bool.and_eq_true] at hs
    simp only [bdecAlt] at h
    split at h
    · split at h
      · rename_i w hw
        simp only [Option.some.injEq] at h
        subst h
        exact bdecT_size hK t x w hf.1 hs.1 hp hw
      · simp at h
    · exact bdecAlt_size hK cs (i + 1) x v hf.2 hs.2 hp h
end

/-- The value is at most `K` times as large as the octets read. -/
theorem berDecode_size {K : Nat} (hK : 2 ≤ K) (t : Ty) (b : Bytes) (v : Val) (r : Bytes) (h1 : t.each (Ty.within K) = true)
    (h2 : t.setsOk = true) (h : berDecode t b = some (v, r)) : v.size + K * r.length ≤ K * b.length := by
  simp only [berDecode] at h
  split at h
  · simp at h
  · rename_i x rest hx
    split at h
    · simp at h
    · rename_i w hw
      simp only [Option.some.injEq, Prod.mk.injEq] at h
      obtain ⟨rfl, rfl⟩ := h
      obtain ⟨h3, h4⟩ := readElt_raw b x rest hx
      have e := bdecT_size hK t x w h1 h2 (whole_framed h4) hw
      rw [h3, List.length_append, Nat.mul_add]
      omega

/-! ## Depth -/

theorem shape_depth {k : Prim} {v : Val} (h : primShape k v = true) : v.depth = 1 := by
  cases k <;> cases v <;> first | rfl | (exfalso; revert h; simp [primShape, primLegal])

mutual
theorem admits_depth : ∀ (t : Ty) (v : Val), t.admits v = true → v.depth ≤ t.depth
  | .prim k a, v, h => by
    have : v.depth = 1 := by
      by_cases hk : k = .any
      · subst hk
        cases v <;> first | rfl | (simp [Ty.admits] at h)
      · have : primShape k v = true := by cases k <;> simp_all [Ty.admits]
        exact shape_depth this
    simp [this, Ty.depth]
  | .seq s a cs, v, h => by
    cases v <;> simp only [Ty.admits, Bool.false_eq_true, Bool.and_eq_true] at h
    have := admits_depthC cs _ h.1
    simp only [Val.depth, Ty.depth]; omega
  | .of s a t, v, h => by
    cases v <;> simp only [Ty.admits, Bool.false_eq_true] at h
    rename_i vs
    have key : ∀ us : Vals, us.every t.admits = true → us.depth ≤ t.depth := by
      intro us
      induction us using Vals.rec (motive_1 := fun _ => True) with
      | nil => intro _; simp [Vals.depth]
      | cons u us _ ih =>
        intro hu
        simp only [Vals.every, Bool.and_eq_true] at hu
        have := admits_depth t u hu.1
        have := ih hu.2
        simp only [Vals.depth]; omega
      | _ => trivial
    have := key vs h
    simp only [Val.depth, Ty.depth]; omega
  | .choice a cs, v, h => by
    cases v <;> simp only [Ty.admits, Bool.false_eq_true] at h
    have := admits_depthA cs _ _ h
    simp only [Val.depth, Ty.depth]; omega
  | .bad _, v, h => by simp [Ty.admits] at h
theorem admits_depthC : ∀ (cs : Comps) (vs : Vals), cs.admits vs = true → vs.depth ≤ cs.depth
  | .nil, .nil, _ => by simp [Vals.depth]
  | .nil, .cons _ _, h => by simp [Comps.admits] at h
  | .cons _ _ _, .nil, h => by simp [Comps.admits] at h
  | .cons f t cs, .cons v vs, h => by
    simp only [Comps.admits, Bool.and_eq_true] at h
    have ih := admits_depthC cs vs h.2
    have hv := h.1
    simp only [Vals.depth, Comps.depth]
    cases hm : f.mode with
    | req =>
      simp only [hm] at hv
      have := admits_depth t v hv
      simp only; omega
    | opt =>
      simp only [hm, Bool.or_eq_true, beq_iff_eq] at hv
      rcases hv with rfl | hv
      · simp only [Val.depth]; omega
      · have := admits_depth t v hv
        simp only; omega
    | dflt d =>
      simp only [hm, Bool.or_eq_true, beq_iff_eq] at hv
      rcases hv with rfl | hv
      · simp only; omega
      · have := admits_depth t v hv
        simp only; omega
theorem admits_depthA : ∀ (cs : Comps) (i : Nat) (v : Val), cs.admitsAlt i v = true → v.depth ≤ cs.depth
  | .nil, _, _, h => by simp [Comps.admitsAlt] at h
  | .cons f t cs, 0, v, h => by
    simp only [Comps.admitsAlt] at h
    have := admits_depth t v h
    simp only [Comps.depth]
    cases f.mode <;> simp only <;> omega
  | .cons f t cs, i + 1, v, h => by
    simp only [Comps.admitsAlt] at h
    have := admits_depthA cs i v h
    simp only [Comps.depth]; omega
end

end Asn1
end Verif
