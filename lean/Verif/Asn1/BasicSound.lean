import Verif.Asn1.BasicRead

/-! # What the BER decoder accepts is what `Verif/Spec/Basic.lean` says -/

namespace Verif
namespace Asn1

open Der

/-! ## Tags -/

theorem aroundE_snoc (t : Tag) (e' b : Octets) : ∀ (ts : TagSet) (e : Octets), Basic.Around ts e e' → t.cls ≠ .universal →
    ((∃ junk, Ber.Element t.cls t.num true (e' ++ junk) b) ∨ Basic.Indefinite t.cls t.num true e' b) → Basic.Around (ts ++ [t]) e b
  | [], e, h, ht, hb => by
    simp only [Basic.Around] at h
    subst h
    rcases hb with ⟨junk, hb⟩ | hb
    · exact ⟨ht, Or.inl ⟨junk, b, hb, rfl⟩⟩
    · exact ⟨ht, Or.inr ⟨b, hb, rfl⟩⟩
  | u :: ts, e, ⟨hu, Or.inl ⟨j, e1, h1, h2⟩⟩, ht, hb => ⟨hu, Or.inl ⟨j, e1, h1, aroundE_snoc t e' b ts e1 h2 ht hb⟩⟩
  | u :: ts, e, ⟨hu, Or.inr ⟨e1, h1, h2⟩⟩, ht, hb => ⟨hu, Or.inr ⟨e1, h1, aroundE_snoc t e' b ts e1 h2 ht hb⟩⟩

/-- The element inside, and how its octets are part of the contents. -/
theorem inner_raw (x z : Elt) (h : x.inner = some z) : z.whole ∧
    ((x.indef = false ∧ ∃ junk, x.tlv.content = z.tlv.raw ++ junk) ∨ (x.indef = true ∧ x.tlv.content = z.tlv.raw)) := by
  cases hx : x.indef with
  | false =>
    simp only [Elt.inner, hx, Bool.false_eq_true, if_false, Option.map_eq_some_iff] at h
    obtain ⟨⟨y, r⟩, h1, rfl⟩ := h
    obtain ⟨h2, h3⟩ := readElt_raw _ _ _ h1
    exact ⟨h3, Or.inl ⟨rfl, r, h2⟩⟩
  | true =>
    simp only [Elt.inner, hx, if_true] at h
    split at h
    · rename_i y hy
      simp only [Option.some.injEq] at h
      subst h
      obtain ⟨h2, h3⟩ := elts_raw _ _ hy
      exact ⟨h3 y (List.mem_cons_self ..), Or.inr ⟨rfl, by simpa using h2⟩⟩
    · simp at h

theorem unwrapE_basic : ∀ (us : List Tag) (x y : Elt), x.whole → unwrapE us x = some y →
    ∃ t ts, us.reverse = t :: ts ∧ y.tlv.cls = t.cls ∧ y.tlv.num = t.num ∧ y.whole ∧ Basic.Around ts y.tlv.raw x.tlv.raw
  | [], _, _, _, h => by simp [unwrapE] at h
  | [t], x, y, hx, h => by
    simp only [unwrapE] at h
    split at h
    · rename_i hh
      simp only [Option.some.injEq] at h
      subst h
      simp only [TLV.has, Bool.and_eq_true, beq_iff_eq] at hh
      exact ⟨t, [], rfl, hh.1, hh.2, hx, rfl⟩
    · simp at h
  | u :: u' :: us, x, y, hx, h => by
    simp only [unwrapE] at h
    split at h
    · rename_i hh
      split at h
      · rename_i z hz
        obtain ⟨g1, g2⟩ := inner_raw x z hz
        obtain ⟨t, ts, h1, h2, h3, h4, h5⟩ := unwrapE_basic (u' :: us) z y g1 h
        simp only [TLV.has, Bool.and_eq_true, beq_iff_eq, bne_iff_ne] at hh
        obtain ⟨⟨⟨hc, hn⟩, hk⟩, hu⟩ := hh
        refine ⟨t, ts ++ [u], by rw [List.reverse_cons, h1]; rfl, h2, h3, h4, ?_⟩
        refine aroundE_snoc u z.tlv.raw x.tlv.raw ts y.tlv.raw h5 (hc ▸ hu) ?_
        unfold Elt.whole at hx
        rw [hc, hn, hk] at hx
        rcases g2 with ⟨i1, junk, i2⟩ | ⟨i1, i2⟩
        · rw [i1, i2] at hx
          exact Or.inl ⟨junk, hx⟩
        · rw [i1, i2] at hx
          exact Or.inr (by simpa [Basic.Element] using hx)
      · simp at h
    · simp at h

theorem unwrapE_tagged (a : Attrs) (x y : Elt) (hx : x.whole) (h : unwrapE a.tags.reverse x = some y) :
    Basic.Tagged y.tlv.constructed y.indef a.tags y.tlv.content x.tlv.raw ∧ y.whole := by
  obtain ⟨t, ts, h1, h2, h3, h4, h5⟩ := unwrapE_basic _ _ _ hx h
  rw [List.reverse_reverse] at h1
  rw [h1]
  refine ⟨⟨y.tlv.raw, ?_, h5⟩, h4⟩
  have := h4
  unfold Elt.whole at this
  rwa [h2, h3] at this

theorem innerElts_basic (a : Attrs) (x : Elt) (xs : List Elt) (hx : x.whole) (h : innerElts a x = some xs) :
    ∃ ind, Basic.Tagged true ind a.tags (xs.map (·.tlv.raw)).flatten x.tlv.raw := by
  simp only [innerElts] at h
  split at h
  · simp at h
  · rename_i y hy
    split at h
    · rename_i hc
      have := (unwrapE_tagged a x y hx hy).1
      rw [hc, (elts_raw _ _ h).1] at this
      exact ⟨y.indef, this⟩
    · simp at h

theorem innerElts_whole (a : Attrs) (x : Elt) (xs : List Elt) (h : innerElts a x = some xs) : ∀ x ∈ xs, x.whole := by
  simp only [innerElts] at h
  split at h
  · simp at h
  · split at h
    · exact (elts_raw _ _ h).2
    · simp at h

/-! ## Contents -/

theorem bdecPrim_basic (k : Prim) (v : Val) (b : Bytes) (hk : k ≠ .any) (h : bdecPrim k b = some v) : Basic.Contents k v b := by
  by_cases hb : k = .boolean
  · subst hb
    simp only [bdecPrim, Option.some.injEq] at h
    subst h
    simp only [Basic.Contents]
    rw [twos_decInt]
    split
    · exact Or.inl ⟨rfl, by assumption⟩
    · exact Or.inr ⟨rfl, by assumption⟩
  · rw [bdecPrim_plain k b hb] at h
    exact (contents_plain k v b hb).2 (decPrim_ber k v b hk h)

theorem piece_element (n : Nat) (x : Elt) (hw : x.whole) (h : x.piece n = true) :
    Ber.Element .universal n false x.tlv.content x.tlv.raw := by
  simp only [Elt.piece, Bool.and_eq_true, Bool.not_eq_true', TLV.has, beq_iff_eq] at h
  obtain ⟨⟨h1, h2⟩, h3, h4⟩ := h
  unfold Elt.whole at hw
  rw [h1, h2, h3, h4] at hw
  exact hw

theorem octets_basic : ∀ (xs : List Elt), (∀ x ∈ xs, x.whole) → xs.all (·.piece 4) = true →
    each2 (fun p e => Ber.Element .universal 4 false p e) (xs.map (·.tlv.content)) (xs.map (·.tlv.raw))
  | [], _, _ => trivial
  | x :: xs, hw, h => by
    simp only [List.all_cons, Bool.and_eq_true] at h
    exact ⟨piece_element 4 x (hw x (List.mem_cons_self ..)) h.1,
      octets_basic xs (fun y hy => hw y (List.mem_cons_of_mem _ hy)) h.2⟩

theorem bits_basic : ∀ (xs : List Elt) (ps : List (List Bool)), (∀ x ∈ xs, x.whole) → xs.all (·.piece 3) = true →
    mapOpt (fun x : Elt => decBits x.tlv.content) xs = some ps →
    each2 (fun p e => ∃ c, Ber.Contents .bitString (.bits p) c ∧ Ber.Element .universal 3 false c e) ps (xs.map (·.tlv.raw))
  | [], ps, _, _, h => by
    simp only [mapOpt, Option.some.injEq] at h
    subst h
    trivial
  | x :: xs, ps, hw, h, hm => by
    simp only [List.all_cons, Bool.and_eq_true] at h
    simp only [mapOpt] at hm
    split at hm
    · rename_i p qs hp hq
      simp only [Option.some.injEq] at hm
      subst hm
      refine ⟨⟨x.tlv.content, ?_, piece_element 3 x (hw x (List.mem_cons_self ..)) h.1⟩,
        bits_basic xs qs (fun y hy => hw y (List.mem_cons_of_mem _ hy)) h.2 hq⟩
      exact decPrim_ber .bitString (.bits p) _ (by simp) (by simp [decPrim, hp])
    · simp at hm

theorem joined_basic (k : Prim) (ind : Bool) (xs : List Elt) (v : Val) (hw : ∀ x ∈ xs, x.whole) (h : joined k ind xs = some v) :
    Basic.Pieces ind k v (xs.map (·.tlv.raw)) := by
  cases k <;> simp only [joined] at h <;> try (cases h; done)
  · split at h
    · rename_i hp
      simp only [Bool.and_eq_true] at hp
      simp only [Option.map_eq_some_iff] at h
      obtain ⟨ps, h1, rfl⟩ := h
      refine ⟨?_, ps, bits_basic xs ps hw hp.1 h1, rfl⟩
      cases ind with
      | true => exact Or.inl rfl
      | false =>
        cases xs with
        | nil => simp at hp
        | cons => simp
    · simp at h
  · split at h
    · rename_i hp
      simp only [Option.some.injEq] at h
      subst h
      exact ⟨_, octets_basic xs hw hp, by simp [List.flatMap_def]⟩
    · simp at h

theorem whole_tlv (x : Elt) (hx : x.whole) (hi : x.indef = false) : x.tlv.whole := by
  unfold Elt.whole at hx
  rw [hi] at hx
  exact (element_of _ _ _ _ _ hx).read

theorem bdecPrimT_basic (k : Prim) (a : Attrs) (x : Elt) (v : Val) (hx : x.whole) (h : bdecPrimT k a x = some v) :
    Basic.reads true (.prim k a) v x.tlv.raw := by
  by_cases hk : k = .any
  · subst hk
    simp only [bdecPrimT, beq_self_eq_true, if_true] at h
    split at h
    · simp at h
    · rename_i hi
      simp only [Bool.not_eq_true] at hi
      simp only [Basic.reads]
      exact decPrimT_ber .any a x.tlv v (whole_tlv x hx hi) h
  · have hr : ((∃ c, Basic.Contents k v c ∧ Basic.Tagged false false a.tags c x.tlv.raw) ∨
        (∃ es form ind, (form = true ∨ ind = true) ∧ Basic.Pieces ind k v es ∧ Basic.Tagged form ind a.tags es.flatten x.tlv.raw)) ∧
        a.spec.ok (.simple v) = true := by
      simp only [bdecPrimT, beq_iff_eq, hk, if_false] at h
      split at h
      · simp at h
      · rename_i y hy
        obtain ⟨ht, hyw⟩ := unwrapE_tagged a x y hx hy
        split at h
        · simp at h
        · rename_i w hw
          split at h
          · rename_i hok
            simp only [Option.some.injEq] at h
            subst h
            refine ⟨?_, hok⟩
            split at hw
            · rename_i hf
              simp only [Bool.or_eq_true] at hf
              simp only [Option.bind_eq_some_iff] at hw
              obtain ⟨xs, h1, h2⟩ := hw
              obtain ⟨e1, e2⟩ := elts_raw _ _ h1
              rw [e1] at ht
              exact Or.inr ⟨_, _, _, hf.symm, joined_basic k _ xs w e2 h2, ht⟩
            · rename_i hf
              simp only [Bool.not_eq_true, Bool.or_eq_false_iff] at hf
              rw [hf.1, hf.2] at ht
              exact Or.inl ⟨_, bdecPrim_basic k w _ hk hw, ht⟩
          · simp at h
    cases k <;> first | exact absurd rfl hk | exact hr

/-! ## Types -/

theorem mapOpt_basic (t : Ty) (hd : ∀ x v, x.whole → bdecT t x = some v → Basic.reads true t v x.tlv.raw) :
    ∀ (xs : List Elt) (vs : List Val), (∀ x ∈ xs, x.whole) → mapOpt (bdecT t) xs = some vs →
      each2 (Basic.reads true t) vs (xs.map (·.tlv.raw))
  | [], vs, _, h => by
    simp only [mapOpt, Option.some.injEq] at h
    subst h
    trivial
  | x :: xs, vs, hx, h => by
    simp only [mapOpt] at h
    split at h
    · rename_i v ws hv hws
      simp only [Option.some.injEq] at h
      subst h
      exact ⟨hd x v (hx x (List.mem_cons_self ..)) hv, mapOpt_basic t hd xs ws (fun y hy => hx y (List.mem_cons_of_mem _ hy)) hws⟩
    · simp at h

/-- What was found for the first component and what was found for the others, put together again. -/
theorem found_mergeE (p : Elt → Bool) (P : Val → Bytes → Prop) (Q : Nat × Val → Bytes → Prop) : ∀ (xs : List Elt) (ws : List Val)
    (hs : List (Nat × Val)), each2 P ws ((xs.filter p).map (·.tlv.raw)) → each2 Q hs ((xs.filter (fun x => !p x)).map (·.tlv.raw)) →
    ∃ gs : List (Nat × Val), each2 (fun g e => match g.1 with | 0 => P g.2 e | i + 1 => Q (i, g.2) e) gs (xs.map (·.tlv.raw)) ∧
      Ber.first gs = ws ∧ Ber.others gs = hs
  | [], ws, hs, h1, h2 => by
    cases ws <;> cases hs <;> simp [each2] at h1 h2
    exact ⟨[], trivial, rfl, rfl⟩
  | x :: xs, ws, hs, h1, h2 => by
    cases hp : p x with
    | true =>
      rw [List.filter_cons_of_pos hp, List.map_cons] at h1
      rw [List.filter_cons_of_neg (by simp [hp])] at h2
      cases ws with
      | nil => simp [each2] at h1
      | cons w ws =>
        obtain ⟨gs, g1, g2, g3⟩ := found_mergeE p P Q xs ws hs h1.2 h2
        exact ⟨(0, w) :: gs, ⟨h1.1, g1⟩, by simp [Ber.first, g2], by simp [Ber.others, g3]⟩
    | false =>
      rw [List.filter_cons_of_neg (by simp [hp])] at h1
      rw [List.filter_cons_of_pos (by simp [hp]), List.map_cons] at h2
      cases hs with
      | nil => simp [each2] at h2
      | cons h hs =>
        obtain ⟨gs, g1, g2, g3⟩ := found_mergeE p P Q xs ws hs h1 h2.2
        exact ⟨(h.1 + 1, h.2) :: gs, ⟨h2.1, g1⟩, by simp [Ber.first, g2], by simp [Ber.others, g3]⟩

mutual
theorem bdecT_basic : ∀ (t : Ty) (x : Elt) (v : Val), t.setsOk = true → x.whole → bdecT t x = some v → Basic.reads true t v x.tlv.raw
  | .prim k a, x, v, _, hx, h => bdecPrimT_basic k a x v hx h
  | .seq s a cs, x, v, hs, hx, h => by
    simp only [Ty.setsOk, Bool.and_eq_true] at hs
    simp only [bdecT] at h
    split at h
    · simp at h
    · rename_i xs hxs
      have hw := innerElts_whole a x xs hxs
      split at h
      · simp at h
      · rename_i vs hvs
        split at h
        · rename_i hok
          simp only [Option.some.injEq] at h
          subst h
          obtain ⟨ind, hin⟩ := innerElts_basic a x xs hx hxs
          refine ⟨⟨xs.map (·.tlv.raw), ind, hin, ?_⟩, ?_⟩
          rotate_left
          · intro hcl
            rw [closed_noOpen] at hcl
            rw [present_names]
            simpa [hcl] using hok
          cases s with
          | true =>
            simp only [if_true] at hvs ⊢
            split at hvs
            · rename_i hall
              simp only [Bool.not_true, Bool.false_or] at hs
              exact bdecSet_basic cs xs vs hs.2 hs.1 hw (List.all_eq_true.1 hall) hvs
            · simp at hvs
          | false =>
            simp only [Bool.false_eq_true, if_false] at hvs ⊢
            exact bdecComps_basic cs xs vs hs.2 hw hvs
        · simp at h
  | .of s a t, x, v, hs, hx, h => by
    simp only [Ty.setsOk] at hs
    simp only [bdecT] at h
    split at h
    · simp at h
    · rename_i xs hxs
      have hw := innerElts_whole a x xs hxs
      split at h
      · simp at h
      · rename_i vs hvs
        simp only [Option.some.injEq] at h
        subst h
        obtain ⟨ind, hin⟩ := innerElts_basic a x xs hx hxs
        refine ⟨xs.map (·.tlv.raw), ind, hin, ?_⟩
        rw [Vals.toList_ofList]
        exact mapOpt_basic t (bdecT_basic t · · hs) xs vs hw hvs
  | .choice a cs, x, v, hs, hx, h => by
    simp only [Ty.setsOk] at hs
    simp only [bdecT] at h
    split at h
    · rename_i ht
      obtain ⟨j, w, rfl, hr⟩ := bdecAlt_basic cs 0 x v hs hx h
      simp only [Basic.reads, ht, if_true, Nat.zero_add]
      exact hr
    · rename_i t ts ht
      split at h
      · simp at h
      · rename_i y hy
        split at h
        · simp at h
        · rename_i z hz
          obtain ⟨hzw, hzc⟩ := inner_raw y z hz
          obtain ⟨j, w, rfl, hr⟩ := bdecAlt_basic cs 0 z v hs hzw h
          have hy' := (unwrapE_tagged a x y hx (by rw [ht]; rw [ht] at hy; exact hy)).1
          have hn : a.tags ≠ [] := by rw [ht]; simp
          simp only [Basic.reads, hn, if_false, Nat.zero_add]
          refine ⟨y.tlv.constructed, z.tlv.raw, hr, ?_⟩
          rcases hzc with ⟨i1, junk, i2⟩ | ⟨i1, i2⟩
          · rw [i1, i2] at hy'
            exact Or.inl ⟨junk, hy'⟩
          · rw [i1, i2] at hy'
            exact Or.inr hy'
  | .bad _, x, v, _, hx, h => by simp [bdecT] at h
theorem bdecComps_basic : ∀ (cs : Comps) (xs : List Elt) (vs : Vals), cs.setsOk = true → (∀ x ∈ xs, x.whole) → bdecComps cs xs = some vs →
    Basic.components true cs vs (xs.map (·.tlv.raw))
  | .nil, [], vs, _, _, h => by
    simp only [bdecComps, Option.some.injEq] at h
    subst h
    simp [Basic.components]
  | .nil, _ :: _, vs, _, _, h => by simp [bdecComps] at h
  | .cons f t cs, [], vs, hs, hw, h => by
    simp only [Comps.setsOk, Bool.and_eq_true] at hs
    simp only [bdecComps] at h
    split at h
    · rename_i v ws hv hws
      simp only [Option.some.injEq] at h
      subst h
      exact Or.inr ⟨bdecComps_basic cs [] ws hs.2 hw hws, missing_ber f v hv⟩
    · simp at h
  | .cons f t cs, x :: xs, vs, hs, hw, h => by
    simp only [Comps.setsOk, Bool.and_eq_true] at hs
    simp only [bdecComps] at h
    split at h
    · split at h
      · rename_i v ws hv hws
        simp only [Option.some.injEq] at h
        subst h
        exact Or.inl ⟨x.tlv.raw, xs.map (·.tlv.raw), rfl, bdecT_basic t x v hs.1 (hw x (List.mem_cons_self ..)) hv,
          bdecComps_basic cs xs ws hs.2 (fun y hy => hw y (List.mem_cons_of_mem _ hy)) hws⟩
      · simp at h
    · split at h
      · rename_i v ws hv hws
        simp only [Option.some.injEq] at h
        subst h
        exact Or.inr ⟨bdecComps_basic cs (x :: xs) ws hs.2 hw hws, missing_ber f v hv⟩
      · simp at h
theorem bdecSet_basic : ∀ (cs : Comps) (xs : List Elt) (vs : Vals), cs.setsOk = true → cs.pairOk = true → (∀ x ∈ xs, x.whole) →
    (∀ x ∈ xs, cs.matches x.tlv = true) → bdecSet cs xs = some vs →
    ∃ hs, each2 (fun h e => Basic.alternative true cs h.1 h.2 e) hs (xs.map (·.tlv.raw)) ∧ Ber.settled cs vs hs
  | .nil, xs, vs, _, _, _, hm, h => by
    simp only [bdecSet, Option.some.injEq] at h
    subst h
    cases xs with
    | nil => exact ⟨[], trivial, rfl⟩
    | cons x xs => simpa [Comps.matches] using hm x (List.mem_cons_self ..)
  | .cons f t cs, xs, vs, hs, hp, hw, hm, h => by
    simp only [Comps.setsOk, Bool.and_eq_true] at hs
    simp only [Comps.pairOk, Bool.and_eq_true] at hp
    simp only [bdecSet] at h
    split at h
    · rename_i ws us hws hus
      have e : xs.filter (fun x => cs.matches x.tlv) = xs.filter (fun x => !t.matches x.tlv) := by
        apply List.filter_congr
        intro x hx
        have hx := hm x hx
        simp only [Comps.matches, Bool.or_eq_true] at hx
        cases ht : t.matches x.tlv with
        | false => simpa [ht] using hx
        | true => simp [Ty.disjointAll_matches t x.tlv cs hp.1 ht]
      rw [← bdecSet_filter (fun x => cs.matches x.tlv) cs xs (fun _ h => h)] at hus
      obtain ⟨hs', ih1, ih2⟩ := bdecSet_basic cs _ us hs.2 hp.2 (fun x hx => hw x (List.mem_filter.1 hx).1)
        (fun x hx => (List.mem_filter.1 hx).2) hus
      rw [e] at ih1
      have hf : ∀ x ∈ xs.filter (fun x => t.matches x.tlv), x.whole := fun x hx => hw x (List.mem_filter.1 hx).1
      obtain ⟨gs, g1, g2, g3⟩ := found_mergeE (fun x => t.matches x.tlv) _ _ xs ws hs' (mapOpt_basic t (bdecT_basic t · · hs.1) _ ws hf hws) ih1
      refine ⟨gs, each2_imp ?_ g1, ?_⟩
      · rintro ⟨i, w⟩ b hb
        cases i <;> exact hb
      · split at h
        · rename_i w hw'
          simp only [Option.some.injEq] at h
          subst h
          simp only [Ber.settled, g2, g3, hw']
          exact ⟨trivial, ih2⟩
        · rename_i hw'
          split at h
          · rename_i w hm
            simp only [Option.some.injEq] at h
            subst h
            simp only [Ber.settled, g2, g3, hw']
            exact ⟨missing_ber f w hm, ih2⟩
          · simp at h
    · simp at h
theorem bdecAlt_basic : ∀ (cs : Comps) (i : Nat) (x : Elt) (v : Val), cs.setsOk = true → x.whole → bdecAlt cs i x = some v →
    ∃ j w, v = .alt (i + j) w ∧ Basic.alternative true cs j w x.tlv.raw
  | .nil, i, x, v, _, _, h => by simp [bdecAlt] at h
  | .cons f t cs, i, x, v, hs, hx, h => by
    simp only [Comps.setsOk, Bool.and_eq_true] at hs
    simp only [bdecAlt] at h
    split at h
    · split at h
      · rename_i w hw
        simp only [Option.some.injEq] at h
        subst h
        exact ⟨0, w, rfl, bdecT_basic t x w hs.1 hx hw⟩
      · simp at h
    · obtain ⟨j, w, rfl, hr⟩ := bdecAlt_basic cs (i + 1) x v hs.2 hx h
      exact ⟨j + 1, w, by rw [Nat.add_assoc, Nat.add_comm 1], hr⟩
end

theorem berDecode_basic (t : Ty) (b : Bytes) (v : Val) (rest : Bytes) (hs : t.setsOk = true) (h : berDecode t b = some (v, rest)) :
    ∃ p, b = p ++ rest ∧ Basic.reads true t v p := by
  simp only [berDecode] at h
  split at h
  · simp at h
  · rename_i x r hx
    split at h
    · simp at h
    · rename_i w hw
      simp only [Option.some.injEq, Prod.mk.injEq] at h
      obtain ⟨rfl, rfl⟩ := h
      exact ⟨x.tlv.raw, (readElt_raw _ _ _ hx).1, bdecT_basic t x w hs (readElt_raw _ _ _ hx).2 hw⟩

end Asn1
end Verif
