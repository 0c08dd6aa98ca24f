import Verif.Asn1.Roundtrip

/-!
# One encoding per abstract value

Values that are the same up to the order of SET OF elements and vanishing empty
collections have the same encoding.
-/

namespace Verif
namespace Asn1

/-- Elements of a SET OF in DER order. -/
def sortB (cs : List Bytes) : List Bytes := sortBy bytesLe (ljust (maxLen cs)) cs

theorem sortChunks_fst {α : Type} (ps : List (Bytes × α)) : (sortChunks ps).map Prod.fst = sortB (ps.map Prod.fst) := by
  unfold sortChunks sortB
  exact sortBy_map bytesLe _ _ Prod.fst (fun _ => rfl) ps

theorem mapOpt_pairs (f : Val → Option Bytes) (l : List Val) :
    (mapOpt (fun v => (f v).map (fun b => (b, v))) l).map (·.map Prod.fst) = mapOpt f l := by
  induction l with
  | nil => rfl
  | cons v l ih =>
    simp only [mapOpt]
    rw [← ih]
    cases f v <;> cases mapOpt (fun v => (f v).map (fun b => (b, v))) l <;> rfl

/-- The SEQUENCE OF / SET OF encoder in terms of the octets of the elements. -/
theorem enc_of_eq (ine isSet : Bool) (a : Attrs) (t : Ty) (vs : Vals) :
    enc ine (.of isSet a t) (.list vs) =
      if a.spec.ok (.mapping vs.length []) then
        match mapOpt (enc ine t) vs.toList with
        | none => none
        | some cs =>
          let content := (if isSet then sortB cs else cs).flatten
          if ine && content.isEmpty then some [] else wrap true a.tags content
      else none := by
  simp only [enc]
  split
  · rw [← mapOpt_pairs]
    cases mapOpt (fun v => (enc ine t v).map (fun b => (b, v))) vs.toList with
    | none => rfl
    | some ps =>
      simp only [Option.map_some]
      have : (if isSet then sortChunks ps else ps).flatMap Prod.fst =
          (if isSet then sortB (ps.map Prod.fst) else ps.map Prod.fst).flatten := by
        rw [List.flatMap_def]
        cases isSet with
        | false => rfl
        | true => simp only [if_true, sortChunks_fst]
      rw [this]
  · rfl

/-- Padding does not confuse two elements. -/
theorem ljust_inj {b c : Bytes} {x y : TLV} (hb : IsTLV b x) (hc : IsTLV c y) (n : Nat)
    (h : ljust n b = ljust n c) : b = c := by
  unfold ljust at h
  have h1 := hb.2 (List.replicate (n - b.length) 0)
  have h2 := hc.2 (List.replicate (n - c.length) 0)
  rw [h, h2] at h1
  simp only [Option.some.injEq, Prod.mk.injEq] at h1
  rw [← hb.raw, ← hc.raw, h1.1]

theorem sortB_perm {cs ds : List Bytes} (h : cs.Perm ds) (ht : ∀ c ∈ cs, ∃ x, IsTLV c x) : sortB cs = sortB ds := by
  unfold sortB
  rw [maxLen_perm h]
  have h1 := sortBy_perm bytesLe (ljust (maxLen ds)) cs
  have h2 := sortBy_perm bytesLe (ljust (maxLen ds)) ds
  refine List.Perm.eq_of_pairwise (le := fun a b => bytesLe (ljust (maxLen ds) a) (ljust (maxLen ds) b) = true) ?_
    (sortBy_sorted _ _ bytesLe_total bytesLe_trans cs) (sortBy_sorted _ _ bytesLe_total bytesLe_trans ds)
    (h1.trans (h.trans h2.symm))
  intro a b ha hb hab hba
  obtain ⟨x, hx⟩ := ht a (h1.mem_iff.1 ha)
  obtain ⟨y, hy⟩ := ht b (h.mem_iff.2 (h2.mem_iff.1 hb))
  exact ljust_inj hx hy _ (bytesLe_antisymm _ _ hab hba)

theorem flatten_filter (cs : List Bytes) : (cs.filter (fun b => !b.isEmpty)).flatten = cs.flatten := by
  induction cs with
  | nil => rfl
  | cons c cs ih => cases c <;> simpa using ih

theorem sortB_filter (cs : List Bytes) :
    (sortB (cs.filter (fun b => !b.isEmpty))).flatten = (sortB cs).flatten := by
  unfold sortB
  rw [maxLen_filter, ← sortBy_filter _ _ bytesLe_total bytesLe_trans, flatten_filter]

theorem all2_filter {α β : Type} {p : α → β → Prop} (q : α → Bool) (r : β → Bool) :
    ∀ {as : List α} {bs : List β}, (∀ a b, p a b → q a = r b) → all2 p as bs → all2 p (as.filter q) (bs.filter r)
  | [], [], _, _ => trivial
  | [], _ :: _, _, h => h.elim
  | _ :: _, [], _, h => h.elim
  | a :: as, b :: bs, hp, h => by
    have ih := all2_filter q r hp h.2
    have := hp a b h.1
    cases hq : q a with
    | true =>
      rw [List.filter_cons_of_pos hq, List.filter_cons_of_pos (by rw [← this, hq])]
      exact ⟨h.1, ih⟩
    | false =>
      rw [List.filter_cons_of_neg (by simp [hq]), List.filter_cons_of_neg (by simp [← this, hq])]
      exact ih

theorem all2_and_left {α β : Type} {p : α → β → Prop} {q : α → Prop} :
    ∀ {as : List α} {bs : List β}, (∀ a ∈ as, q a) → all2 p as bs → all2 (fun a b => p a b ∧ q a) as bs
  | [], [], _, _ => trivial
  | [], _ :: _, _, h => h.elim
  | _ :: _, [], _, h => h.elim
  | a :: _, _ :: _, hq, h => ⟨⟨h.1, hq a (by simp)⟩, all2_and_left (fun x hx => hq x (by simp [hx])) h.2⟩

/-- Relations over the same middle list compose. -/
theorem all2_trans {α β γ : Type} {p : α → β → Prop} {q : α → γ → Prop} {r : β → γ → Prop}
    (h : ∀ a b c, p a b → q a c → r b c) :
    ∀ {as : List α} {bs : List β} {cs : List γ}, all2 p as bs → all2 q as cs → all2 r bs cs
  | [], [], [], _, _ => trivial
  | [], [], _ :: _, _, h2 => h2.elim
  | [], _ :: _, _, h1, _ => h1.elim
  | _ :: _, [], _, h1, _ => h1.elim
  | _ :: _, _ :: _, [], _, h2 => h2.elim
  | _ :: _, _ :: _, _ :: _, h1, h2 => ⟨h _ _ _ h1.1 h2.1, all2_trans h h1.2 h2.2⟩

theorem all2_and_right {α β : Type} {p : α → β → Prop} {q : β → Prop} :
    ∀ {as : List α} {bs : List β}, (∀ b ∈ bs, q b) → all2 p as bs → all2 (fun a b => p a b ∧ q b) as bs
  | [], [], _, _ => trivial
  | [], _ :: _, _, h => h.elim
  | _ :: _, [], _, h => h.elim
  | _ :: _, b :: _, hq, h => ⟨⟨h.1, hq b (by simp)⟩, all2_and_right (fun x hx => hq x (by simp [hx])) h.2⟩

/-- Written octets are empty exactly for values that vanish. -/
theorem enc_empty_iff (t : Ty) (ine : Bool) (v : Val) (b : Bytes) (hw : t.wf = true) (hv : t.valid v = true)
    (he : enc ine t v = some b) : b.isEmpty = (ine && t.vanish v) := by
  rcases rt t ine v b hw hv he with ⟨h1, h2, h3⟩ | ⟨h0, x, w, h1, _⟩
  · rw [h1, h2, h3]; rfl
  · have : b.isEmpty = false := by
      have := h1.1
      cases b <;> simp_all
    rw [this]
    cases hi : ine with
    | false => rfl
    | true => rw [h0 hi]; rfl

theorem enc_isTLV (t : Ty) (ine : Bool) (v : Val) (b : Bytes) (hw : t.wf = true) (hv : t.valid v = true)
    (he : enc ine t v = some b) (hb : b ≠ []) : ∃ x, IsTLV b x := by
  rcases rt t ine v b hw hv he with ⟨h1, _⟩ | ⟨_, x, _, h1, _⟩
  · exact absurd h1 hb
  · exact ⟨x, h1⟩

theorem enc_same_of (ine isSet : Bool) (a : Attrs) (t : Ty) (v w : Val) (b : Bytes)
    (iht : ∀ v w b, t.wf = true → t.stable = true → t.valid v = true → t.valid w = true → t.same ine v w →
      enc ine t v = some b → enc ine t w = some b)
    (hw : (Ty.of isSet a t).wf = true) (hs : (Ty.of isSet a t).stable = true)
    (hv : (Ty.of isSet a t).valid v = true) (hv' : (Ty.of isSet a t).valid w = true)
    (h : (Ty.of isSet a t).same ine v w) (he : enc ine (.of isSet a t) v = some b) :
    enc ine (.of isSet a t) w = some b := by
  cases v <;> cases w <;> simp [Ty.same, -Bool.not_and] at h
  rename_i vs ws
  obtain ⟨us, hus, hall⟩ := h
  simp only [Ty.wf, Ty.stable, Ty.valid, Bool.and_eq_true, Vals.every_iff, List.all_eq_true] at hw hs hv hv'
  rw [enc_of_eq] at he ⊢
  rw [if_pos hv.2] at he
  rw [if_pos hv'.2]
  cases hcs : mapOpt (enc ine t) vs.toList with
  | none => simp [hcs] at he
  | some cs =>
    simp only [hcs] at he
    rw [mapOpt_all2] at hcs
    have hperm : us.Perm vs.toList := by
      cases isSet with
      | false => simp at hus; rw [hus]
      | true => simpa using hus
    obtain ⟨ds, hd1, hd2⟩ : ∃ ds, (cs.Perm ds) ∧ (all2 (fun a b => enc ine t a = some b) us ds) ∧ (isSet = false → ds = cs) := by
      cases isSet with
      | false =>
        simp at hus; rw [hus]
        exact ⟨cs, List.Perm.refl _, hcs, fun _ => rfl⟩
      | true =>
        obtain ⟨ds, h1, h2⟩ := all2_perm hperm.symm hcs
        exact ⟨ds, h1, h2, by simp⟩
    obtain ⟨hd2, hd3⟩ := hd2
    have huv : ∀ u ∈ us, t.valid u = true := fun u hu => hv.1 u (hperm.mem_iff.1 hu)
    have hd4 := all2_and_left (q := fun u => t.valid u = true) huv hd2
    have hd5 := all2_filter (fun u => !(ine && t.vanish u)) (fun b : Bytes => !b.isEmpty)
      (fun u c hp => by rw [enc_empty_iff t ine u c hw.2 hp.2 hp.1]) hd4
    have hws := all2_and_right (q := fun w => t.valid w = true) hv'.1 hall
    have hre : all2 (fun w c => enc ine t w = some c) ws.toList (ds.filter (fun b => !b.isEmpty)) :=
      all2_trans (q := fun u c => enc ine t u = some c ∧ t.valid u = true) (fun u w c h1 h2 => iht u w c hw.2 hs.1 h2.2 h1.2 h1.1 h2.1) hws hd5
    rw [← mapOpt_all2] at hre
    rw [hre]
    simp only []
    have hcontent : (if isSet then sortB (ds.filter (fun b => !b.isEmpty)) else ds.filter (fun b => !b.isEmpty)).flatten =
        (if isSet then sortB cs else cs).flatten := by
      cases hi : isSet with
      | false => simp only [Bool.false_eq_true, if_false]; rw [flatten_filter, hd3 hi]
      | true =>
        simp only [if_true]
        rw [← sortB_filter cs]
        congr 1
        apply sortB_perm (hd1.symm.filter _)
        intro c hc
        obtain ⟨u, hu1, hu2⟩ := all2_mem_right hd4 c (List.mem_filter.1 hc).1
        exact enc_isTLV t ine u c hw.2 hu2.2 hu2.1 (by
          have := (List.mem_filter.1 hc).2
          cases c <;> simp_all)
    rw [hcontent]
    exact he

theorem content_filter (isSet : Bool) (ps : List (TagSet × Bytes)) :
    (if isSet then sortBy tagsLe Prod.fst (ps.filter (fun p => !p.2.isEmpty)) else
      ps.filter (fun p => !p.2.isEmpty)).flatMap Prod.snd =
      (if isSet then sortBy tagsLe Prod.fst ps else ps).flatMap Prod.snd := by
  cases isSet with
  | false => exact flatMap_filter Prod.snd ps
  | true =>
    simp only [if_true]
    rw [← sortBy_filter tagsLe Prod.fst tagsLe_total tagsLe_trans]
    exact flatMap_filter Prod.snd _

mutual
theorem enc_same : ∀ (t : Ty) (ine : Bool) (v w : Val) (b : Bytes), t.wf = true → t.stable = true →
    t.valid v = true → t.valid w = true → t.same ine v w → enc ine t v = some b → enc ine t w = some b
  | .prim _ _, _, v, w, _, _, _, _, _, h, he => by
    simp only [Ty.same] at h; rw [← h]; exact he
  | .seq isSet a cs, ine, v, w, b, hw, hs, hv, hv', h, he => by
    cases v <;> cases w <;> simp [Ty.same] at h
    rename_i vs ws
    simp only [Ty.wf, Ty.stable, Ty.valid, Bool.and_eq_true] at hw hs hv hv'
    simp only [enc] at he ⊢
    rw [if_pos hv.2] at he
    rw [if_pos hv'.2]
    cases hps : encComps cs vs with
    | none => simp [hps] at he
    | some ps =>
      obtain ⟨qs, h1, h2⟩ := encComps_same cs vs ws ps hw.1.1.2 hs hv.1 hv'.1 h hps
      simp only [hps] at he
      rw [h1]
      simp only []
      rw [← content_filter isSet qs, h2, content_filter isSet ps]
      exact he
  | .of isSet a t, ine, v, w, b, hw, hs, hv, hv', h, he =>
    enc_same_of ine isSet a t v w b (enc_same t ine) hw hs hv hv' h he
  | .choice a cs, ine, v, w, b, hw, hs, hv, hv', h, he => by
    cases v <;> cases w <;> simp [Ty.same] at h
    rename_i i v j w
    obtain ⟨hij, h⟩ := h
    subst hij
    simp only [Ty.wf, Ty.stable, Ty.valid, Bool.and_eq_true] at hw hs hv hv'
    simp only [enc] at he ⊢
    cases hc : encAlt ine cs i v with
    | none => simp [hc] at he
    | some c =>
      rw [encAlt_same cs ine i v w c hw.1.2 hs hv hv' h hc]
      simp only [hc] at he
      exact he
  | .bad _, _, _, _, _, hw, _, _, _, _, _ => by simp [Ty.wf] at hw
theorem encComps_same : ∀ (cs : Comps) (vs ws : Vals) (ps : List (TagSet × Bytes)), cs.wf = true → cs.stable = true →
    cs.valid vs = true → cs.valid ws = true → cs.same vs ws → encComps cs vs = some ps →
    ∃ qs, encComps cs ws = some qs ∧ qs.filter (fun p => !p.2.isEmpty) = ps.filter (fun p => !p.2.isEmpty)
  | .nil, .nil, .nil, ps, _, _, _, _, _, he => ⟨ps, he, rfl⟩
  | .nil, .nil, .cons _ _, _, _, _, _, _, h, _ => by simp [Comps.same] at h
  | .nil, .cons _ _, _, _, _, _, _, _, h, _ => by simp [Comps.same] at h
  | .cons _ _ _, .nil, _, _, _, _, _, _, h, _ => by simp [Comps.same] at h
  | .cons _ _ _, .cons _ _, .nil, _, _, _, _, _, h, _ => by simp [Comps.same] at h
  | .cons f t cs, .cons v vs, .cons w ws, ps, hw, hs, hv, hv', h, he => by
    simp only [Comps.wf, Comps.stable, Comps.valid, Comps.same, Bool.and_eq_true] at hw hs hv hv' h
    obtain ⟨ps', hps', hcase⟩ := encComps_cons he
    obtain ⟨qs, hq1, hq2⟩ := encComps_same cs vs ws ps' hw.2 hs.2 hv.2 hv'.2 h.2 hps'
    rcases hcase with ⟨hm, hva, hpe⟩ | ⟨hna, hnd, b, hb, hpe⟩
    · subst hpe
      have hskip : w = .absent ∨ f.mode = .dflt w := by
        cases hf : f.mode with
        | req => exact absurd hf hm
        | opt =>
          left
          have hva : v = .absent := by
            rcases hva with h' | h'
            · exact h'
            · rw [hf] at h'; simp at h'
          have h1 := h.1
          simp only [hf] at h1
          rcases h1 with ⟨_, h2⟩ | ⟨_, h2⟩ | ⟨_, h2⟩
          · exact h2
          · exact h2
          · subst hva
            cases t with
            | prim => simpa [Ty.same] using h2.symm
            | seq => simp [Ty.same] at h2
            | of => simp [Ty.same] at h2
            | choice => simp [Ty.same] at h2
            | bad => simp [Ty.same] at h2
        | dflt d =>
          right
          have hvd : v = d := by
            rcases hva with h' | h'
            · have := hv.1
              simp only [hf, Bool.or_eq_true, beq_iff_eq] at this
              rcases this with h'' | h''
              · exact h''
              · exact absurd h' (Ty.valid_ne_absent t v h'')
            · rw [hf] at h'; simp at h'; exact h'.symm
          have h1 := h.1
          simp only [hf] at h1
          rcases h1 with ⟨_, h2⟩ | ⟨h2, _⟩
          · rw [h2]
          · exact absurd hvd h2
      exact ⟨qs, encComps_skip hq1 hm hskip, hq2⟩
    · subst hpe
      have hval : t.valid v = true := by
        have := hv.1
        cases hf : f.mode with
        | req => simpa [hf] using this
        | opt => simpa [hf, hna] using this
        | dflt d =>
          have hd : v ≠ d := fun h => hnd (by rw [hf, h])
          simpa [hf, hd] using this
      have hemp := enc_empty_iff t _ v b hw.1 hval hb
      -- either it vanishes and is absent on the other side, or it is written on both
      have hdis : (b.isEmpty = true ∧ f.mode ≠ .req ∧ w = .absent) ∨
          (t.same f.mode.isOpt v w ∧ f.mode ≠ .dflt w) := by
        have h1 := h.1
        cases hf : f.mode with
        | req => simp only [hf] at h1; right; exact ⟨h1, by simp⟩
        | opt =>
          simp only [hf, Mode.isOpt, Bool.true_and] at h1 hemp
          rcases h1 with ⟨h1, _⟩ | ⟨h1, h2⟩ | ⟨_, h2⟩
          · exact absurd h1 hna
          · left; exact ⟨by rw [hemp, h1], by simp, h2⟩
          · right; exact ⟨h2, by simp⟩
        | dflt d =>
          simp only [hf] at h1
          have hd : v ≠ d := fun h => hnd (by rw [hf, h])
          rcases h1 with ⟨h1, _⟩ | ⟨_, h2⟩
          · exact absurd h1 hd
          · right
            refine ⟨h2, ?_⟩
            intro h3
            simp only [Mode.dflt.injEq] at h3
            have hr : t.rigid = true ∨ d = .absent := by simpa [hf] using hs.1.2
            rcases hr with hr | rfl
            · rw [← Ty.rigid_same t _ v w hr hval h2] at h3
              exact hd h3.symm
            · exact Ty.same_ne_absent _ t v w h2 hna h3.symm
      rcases hdis with ⟨h1, h2, h3⟩ | ⟨h1, h2⟩
      · refine ⟨qs, encComps_skip hq1 h2 (Or.inl h3), ?_⟩
        rw [hq2]
        simp [h1]
      · have hwa := Ty.same_ne_absent _ t v w h1 hna
        have hvalw : t.valid w = true := by
          have := hv'.1
          cases hf : f.mode with
          | req => simpa [hf] using this
          | opt => simpa [hf, hwa] using this
          | dflt d =>
            have hd : w ≠ d := fun h => h2 (by rw [hf, h])
            simpa [hf, hd] using this
        have := enc_same t _ v w b hw.1 hs.1.1 hval hvalw h1 hb
        refine ⟨_, encComps_put hq1 hwa h2 this, ?_⟩
        rw [setKey_same _ t v w h1, List.filter_cons, List.filter_cons, hq2]
theorem encAlt_same : ∀ (cs : Comps) (ine : Bool) (i : Nat) (v w : Val) (b : Bytes), cs.wf = true → cs.stable = true →
    cs.validAlt i v = true → cs.validAlt i w = true → cs.sameAlt ine i v w → encAlt ine cs i v = some b →
    encAlt ine cs i w = some b
  | .nil, _, _, _, _, _, _, _, hv, _, _, _ => by simp [Comps.validAlt] at hv
  | .cons _ t _, ine, 0, v, w, b, hw, hs, hv, hv', h, he => by
    simp only [Comps.wf, Comps.stable, Comps.validAlt, Comps.sameAlt, encAlt, Bool.and_eq_true] at *
    exact enc_same t ine v w b hw.1 hs.1.1 hv hv' h he
  | .cons _ _ cs, ine, i + 1, v, w, b, hw, hs, hv, hv', h, he => by
    simp only [Comps.wf, Comps.stable, Comps.validAlt, Comps.sameAlt, encAlt, Bool.and_eq_true] at *
    exact encAlt_same cs ine i v w b hw.2 hs.2 hv hv' h he
end

end Asn1
end Verif
