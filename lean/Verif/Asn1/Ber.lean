import Verif.Asn1.BerPrim
import Verif.Asn1.DerDecode

/-! # What the decoder accepts is what `Verif/Spec/Ber.lean` says -/

namespace Verif
namespace Asn1

open Der

theorem innerItems_ber (a : Attrs) (x : TLV) (xs : List TLV) (hx : x.whole) (h : innerItems a x = some xs) :
    Ber.Tagged true a.tags (xs.map TLV.raw).flatten x.raw := by
  simp only [innerItems] at h
  split at h
  · simp at h
  · rename_i y hy
    split at h
    · rename_i hc
      have := (unwrap_tagged a x y hx hy).1
      rw [hc, items_ber _ _ _ h] at this
      exact this
    · simp at h

theorem decPrimT_ber (k : Prim) (a : Attrs) (x : TLV) (v : Val) (hx : x.whole) (h : decPrimT k a x = some v) :
    Ber.reads true (.prim k a) v x.raw := by
  by_cases hk : k = .any
  · subst hk
    simp only [decPrimT, beq_self_eq_true, if_true] at h
    simp only [Ber.reads]
    refine ⟨x.cls, x.num, x.constructed, x.content, whole_ber x hx, ?_⟩
    split at h
    · rename_i t ht
      rw [ht]
      simp only [TLV.has, Bool.and_eq_true, beq_iff_eq] at h
      split at h
      · rename_i hh
        simp only [Option.some.injEq] at h
        exact Or.inl ⟨hh.1, hh.2, h.symm⟩
      · rename_i hh
        simp only [Option.some.injEq] at h
        exact Or.inr ⟨trivial, hh, h.symm⟩
    · rename_i hn
      simp only [Option.some.injEq] at h
      split
      · rename_i t ht
        exact absurd ht (hn t)
      · exact h.symm
  · simp only [decPrimT, beq_iff_eq, hk, if_false] at h
    split at h
    · simp at h
    · rename_i y hy
      split at h
      · simp at h
      · rename_i hc
        split at h
        · simp at h
        · rename_i w hw
          split at h
          · rename_i hok
            simp only [Option.some.injEq] at h
            subst h
            have ht := (unwrap_tagged a x y hx hy).1
            simp only [Bool.not_eq_true] at hc
            rw [hc] at ht
            have := decPrim_ber k w y.content hk hw
            cases k <;> first | exact absurd rfl hk | exact ⟨⟨y.content, this, ht⟩, hok⟩
          · simp at h

theorem mapOpt_ber (t : Ty) (hd : ∀ x v, x.whole → decT t x = some v → Ber.reads true t v x.raw) : ∀ (xs : List TLV) (vs : List Val),
    (∀ x ∈ xs, x.whole) → mapOpt (decT t) xs = some vs → each2 (Ber.reads true t) vs (xs.map TLV.raw)
  | [], vs, _, h => by
    simp only [mapOpt, Option.some.injEq] at h
    subst h
    trivial
  | x :: xs, vs, hx, h => by
    simp only [mapOpt] at h
    split at h
    · rename_i v ws hv hws
      simp only [Option.some.injEq] at h
      subst h
      exact ⟨hd x v (hx x (List.mem_cons_self ..)) hv, mapOpt_ber t hd xs ws (fun y hy => hx y (List.mem_cons_of_mem _ hy)) hws⟩
    · simp at h

mutual
/-- The components of the SETs inside can be told apart by their tags. -/
def Ty.setsOk : Ty → Bool
  | .seq isSet _ cs => (!isSet || cs.pairOk) && cs.setsOk
  | .of _ _ t => t.setsOk
  | .choice _ cs => cs.setsOk
  | _ => true
def Comps.setsOk : Comps → Bool
  | .nil => true
  | .cons _ t cs => t.setsOk && cs.setsOk
end

/-- What was found for the first component and what was found for the others, put together again. -/
theorem found_merge (p : TLV → Bool) (P : Val → Bytes → Prop) (Q : Nat × Val → Bytes → Prop) : ∀ (xs : List TLV) (ws : List Val)
    (hs : List (Nat × Val)), each2 P ws ((xs.filter p).map TLV.raw) → each2 Q hs ((xs.filter (fun x => !p x)).map TLV.raw) →
    ∃ gs : List (Nat × Val), each2 (fun g e => match g.1 with | 0 => P g.2 e | i + 1 => Q (i, g.2) e) gs (xs.map TLV.raw) ∧
      Ber.first gs = ws ∧ Ber.others gs = hs
  | [], ws, hs, h1, h2 => by
    cases ws <;> cases hs <;> simp [each2] at h1 h2
    exact ⟨[], trivial, rfl, rfl⟩
  | x :: xs, ws, hs, h1, h2 => by
    cases hp : p x with
    | true =>
      rw [List.filter_cons_of_pos hp, List.map_cons] at h1
      rw [List.filter_cons_of_neg (by simp [hp])] at h2
      cases ws with
      | nil => simp [each2] at h1
      | cons w ws =>
        obtain ⟨gs, g1, g2, g3⟩ := found_merge p P Q xs ws hs h1.2 h2
        exact ⟨(0, w) :: gs, ⟨h1.1, g1⟩, by simp [Ber.first, g2], by simp [Ber.others, g3]⟩
    | false =>
      rw [List.filter_cons_of_neg (by simp [hp])] at h1
      rw [List.filter_cons_of_pos (by simp [hp]), List.map_cons] at h2
      cases hs with
      | nil => simp [each2] at h2
      | cons h hs =>
        obtain ⟨gs, g1, g2, g3⟩ := found_merge p P Q xs ws hs h1 h2.2
        exact ⟨(h.1 + 1, h.2) :: gs, ⟨h2.1, g1⟩, by simp [Ber.first, g2], by simp [Ber.others, g3]⟩

theorem each2_imp {α β : Type} {p q : α → β → Prop} (h : ∀ a b, p a b → q a b) : ∀ {as : List α} {bs : List β}, each2 p as bs → each2 q as bs
  | [], [], _ => trivial
  | _ :: _, _ :: _, ⟨h1, h2⟩ => ⟨h _ _ h1, each2_imp h h2⟩
  | [], _ :: _, h => h.elim
  | _ :: _, [], h => h.elim

theorem missing_ber (f : Field) (v : Val) (h : f.mode.missing = some v) : (match f.mode with
    | .req => False
    | .opt => v = .absent
    | .dflt d => v = d) := by
  cases hm : f.mode <;> rw [hm] at h <;> simp_all [Mode.missing]

theorem closed_noOpen : ∀ cs : Comps, Ber.closed cs = cs.noOpen
  | .nil => rfl
  | .cons f t cs => by simp only [Ber.closed, Comps.noOpen, closed_noOpen cs]

theorem present_names : ∀ (cs : Comps) (vs : Vals), Ber.present cs vs = presentNames cs vs
  | .nil, _ => by simp [Ber.present, presentNames]
  | .cons _ _ _, .nil => by simp [Ber.present, presentNames]
  | .cons f t cs, .cons v vs => by
    simp only [Ber.present, presentNames, present_names cs vs]
    split <;> rfl

mutual
theorem decT_ber : ∀ (t : Ty) (x : TLV) (v : Val), t.setsOk = true → x.whole → decT t x = some v → Ber.reads true t v x.raw
  | .prim k a, x, v, _, hx, h => decPrimT_ber k a x v hx h
  | .seq s a cs, x, v, hs, hx, h => by
    simp only [Ty.setsOk, Bool.and_eq_true] at hs
    simp only [decT] at h
    split at h
    · simp at h
    · rename_i xs hxs
      have hw := innerItems_whole a x xs hxs
      split at h
      · simp at h
      · rename_i vs hvs
        split at h
        · rename_i hok
          simp only [Option.some.injEq] at h
          subst h
          refine ⟨⟨xs.map TLV.raw, innerItems_ber a x xs hx hxs, ?_⟩, ?_⟩
          rotate_left
          · intro hcl
            rw [closed_noOpen] at hcl
            rw [present_names]
            simpa [hcl] using hok
          cases s with
          | true =>
            simp only [if_true] at hvs ⊢
            split at hvs
            · rename_i hall
              simp only [Bool.not_true, Bool.false_or] at hs
              exact decSet_ber cs xs vs hs.2 hs.1 hw (List.all_eq_true.1 hall) hvs
            · simp at hvs
          | false =>
            simp only [Bool.false_eq_true, if_false] at hvs ⊢
            exact decComps_ber cs xs vs hs.2 hw hvs
        · simp at h
  | .of s a t, x, v, hs, hx, h => by
    simp only [Ty.setsOk] at hs
    simp only [decT] at h
    split at h
    · simp at h
    · rename_i xs hxs
      have hw := innerItems_whole a x xs hxs
      split at h
      · simp at h
      · rename_i vs hvs
        simp only [Option.some.injEq] at h
        subst h
        refine ⟨xs.map TLV.raw, innerItems_ber a x xs hx hxs, ?_⟩
        rw [Vals.toList_ofList]
        exact mapOpt_ber t (decT_ber t · · hs) xs vs hw hvs
  | .choice a cs, x, v, hs, hx, h => by
    simp only [Ty.setsOk] at hs
    simp only [decT] at h
    split at h
    · rename_i ht
      obtain ⟨j, w, rfl, hr⟩ := decAlt_ber cs 0 x v hs hx h
      simp only [Ber.reads, ht, if_true, Nat.zero_add]
      exact hr
    · rename_i t ts ht
      split at h
      · simp at h
      · rename_i y hy
        split at h
        · simp at h
        · rename_i z r hz
          obtain ⟨j, w, rfl, hr⟩ := decAlt_ber cs 0 z v hs (readTLV_raw _ _ _ hz) h
          have hy' := (unwrap_tagged a x y hx (by rw [ht]; rw [ht] at hy; exact hy)).1
          have hn : a.tags ≠ [] := by rw [ht]; simp
          simp only [Ber.reads, hn, if_false, Nat.zero_add]
          refine ⟨y.constructed, z.raw, r, hr, ?_⟩
          rw [← (readTLV_suffix _ _ _ hz).1]
          exact hy'
  | .bad _, x, v, _, hx, h => by simp [decT] at h
theorem decComps_ber : ∀ (cs : Comps) (xs : List TLV) (vs : Vals), cs.setsOk = true → (∀ x ∈ xs, x.whole) → decComps cs xs = some vs →
    Ber.components true cs vs (xs.map TLV.raw)
  | .nil, [], vs, _, _, h => by
    simp only [decComps, Option.some.injEq] at h
    subst h
    simp [Ber.components]
  | .nil, _ :: _, vs, _, _, h => by simp [decComps] at h
  | .cons f t cs, [], vs, hs, hw, h => by
    simp only [Comps.setsOk, Bool.and_eq_true] at hs
    simp only [decComps] at h
    split at h
    · rename_i v ws hv hws
      simp only [Option.some.injEq] at h
      subst h
      exact Or.inr ⟨decComps_ber cs [] ws hs.2 hw hws, missing_ber f v hv⟩
    · simp at h
  | .cons f t cs, x :: xs, vs, hs, hw, h => by
    simp only [Comps.setsOk, Bool.and_eq_true] at hs
    simp only [decComps] at h
    split at h
    · split at h
      · rename_i v ws hv hws
        simp only [Option.some.injEq] at h
        subst h
        exact Or.inl ⟨x.raw, xs.map TLV.raw, rfl, decT_ber t x v hs.1 (hw x (List.mem_cons_self ..)) hv,
          decComps_ber cs xs ws hs.2 (fun y hy => hw y (List.mem_cons_of_mem _ hy)) hws⟩
      · simp at h
    · split at h
      · rename_i v ws hv hws
        simp only [Option.some.injEq] at h
        subst h
        exact Or.inr ⟨decComps_ber cs (x :: xs) ws hs.2 hw hws, missing_ber f v hv⟩
      · simp at h
theorem decSet_ber : ∀ (cs : Comps) (xs : List TLV) (vs : Vals), cs.setsOk = true → cs.pairOk = true → (∀ x ∈ xs, x.whole) →
    (∀ x ∈ xs, cs.matches x = true) → decSet cs xs = some vs →
    ∃ hs, each2 (fun h e => Ber.alternative true cs h.1 h.2 e) hs (xs.map TLV.raw) ∧ Ber.settled cs vs hs
  | .nil, xs, vs, _, _, _, hm, h => by
    simp only [decSet, Option.some.injEq] at h
    subst h
    cases xs with
    | nil => exact ⟨[], trivial, rfl⟩
    | cons x xs => simpa [Comps.matches] using hm x (List.mem_cons_self ..)
  | .cons f t cs, xs, vs, hs, hp, hw, hm, h => by
    simp only [Comps.setsOk, Bool.and_eq_true] at hs
    simp only [Comps.pairOk, Bool.and_eq_true] at hp
    simp only [decSet] at h
    split at h
    · rename_i ws us hws hus
      have e : xs.filter cs.matches = xs.filter (fun x => !t.matches x) := by
        apply List.filter_congr
        intro x hx
        have hx := hm x hx
        simp only [Comps.matches, Bool.or_eq_true] at hx
        cases ht : t.matches x with
        | false => simpa [ht] using hx
        | true => simp [Ty.disjointAll_matches t x cs hp.1 ht]
      rw [← decSet_filter cs.matches cs xs (fun _ h => h)] at hus
      obtain ⟨hs', ih1, ih2⟩ := decSet_ber cs _ us hs.2 hp.2 (fun x hx => hw x (List.mem_filter.1 hx).1)
        (fun x hx => (List.mem_filter.1 hx).2) hus
      rw [e] at ih1
      have hf : ∀ x ∈ xs.filter t.matches, x.whole := fun x hx => hw x (List.mem_filter.1 hx).1
      obtain ⟨gs, g1, g2, g3⟩ := found_merge t.matches _ _ xs ws hs' (mapOpt_ber t (decT_ber t · · hs.1) _ ws hf hws) ih1
      refine ⟨gs, each2_imp ?_ g1, ?_⟩
      · rintro ⟨i, w⟩ b hb
        cases i <;> exact hb
      · split at h
        · rename_i w hw'
          simp only [Option.some.injEq] at h
          subst h
          simp only [Ber.settled, g2, g3, hw']
          exact ⟨trivial, ih2⟩
        · rename_i hw'
          split at h
          · rename_i w hm
            simp only [Option.some.injEq] at h
            subst h
            simp only [Ber.settled, g2, g3, hw']
            exact ⟨missing_ber f w hm, ih2⟩
          · simp at h
    · simp at h
theorem decAlt_ber : ∀ (cs : Comps) (i : Nat) (x : TLV) (v : Val), cs.setsOk = true → x.whole → decAlt cs i x = some v →
    ∃ j w, v = .alt (i + j) w ∧ Ber.alternative true cs j w x.raw
  | .nil, i, x, v, _, _, h => by simp [decAlt] at h
  | .cons f t cs, i, x, v, hs, hx, h => by
    simp only [Comps.setsOk, Bool.and_eq_true] at hs
    simp only [decAlt] at h
    split at h
    · split at h
      · rename_i w hw
        simp only [Option.some.injEq] at h
        subst h
        exact ⟨0, w, rfl, decT_ber t x w hs.1 hx hw⟩
      · simp at h
    · obtain ⟨j, w, rfl, hr⟩ := decAlt_ber cs (i + 1) x v hs.2 hx h
      exact ⟨j + 1, w, by rw [Nat.add_assoc, Nat.add_comm 1], hr⟩
end

theorem decode_ber (t : Ty) (b : Bytes) (v : Val) (rest : Bytes) (hs : t.setsOk = true) (h : decode t b = some (v, rest)) :
    ∃ p, b = p ++ rest ∧ Ber.reads true t v p := by
  simp only [decode] at h
  split at h
  · simp at h
  · rename_i x r hx
    split at h
    · simp at h
    · rename_i w hw
      simp only [Option.some.injEq, Prod.mk.injEq] at h
      obtain ⟨rfl, rfl⟩ := h
      exact ⟨x.raw, (readTLV_suffix _ _ _ hx).1, decT_ber t x w hs (readTLV_raw _ _ _ hx) hw⟩

end Asn1
end Verif
