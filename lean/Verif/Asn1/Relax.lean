import Verif.Spec.Relax
import Verif.Asn1.Compat
import Verif.Asn1.OpenFuel

/-!
# Relaxing a type keeps values and octets
-/

namespace Verif
namespace Asn1

theorem wrap_bare : ∀ (ts us : TagSet) (b : Bytes), ts.bare = us.bare → wrap true ts b = wrap true us b
  | [], [], _, _ => rfl
  | [], _ :: _, _, h => by simp [TagSet.bare] at h
  | _ :: _, [], _, h => by simp [TagSet.bare] at h
  | t :: ts, u :: us, b, h => by
    simp only [TagSet.bare, List.map_cons, List.cons.injEq, Prod.mk.injEq] at h
    have ih := fun c => wrap_bare ts us c (by simpa [TagSet.bare] using h.2)
    simp only [wrap, tlv, Bool.or_true, h.1.1, h.1.2]
    congr 1
    funext c
    exact ih c

theorem listed_ok (s : Subject) (x : Constraint) (vs : List Val) (h : x.listed = some vs) (hx : x.ok s = true) :
    ∃ v ∈ vs, s = .simple v := by
  cases x with
  | single ws =>
    cases ws with
    | nil => simp [Constraint.listed] at h
    | cons w ws =>
      simp only [Constraint.listed, Option.some.injEq] at h
      cases s with
      | mapping => simp [Constraint.ok] at hx
      | simple v =>
        simp only [Constraint.ok, List.contains_iff_mem] at hx
        exact ⟨v, h ▸ hx, rfl⟩
  | range l u =>
    cases l with
    | inf => simp [Constraint.listed] at h
    | fin l =>
      cases u with
      | inf => simp [Constraint.listed] at h
      | fin u =>
        simp only [Constraint.listed] at h
        split at h
        · simp only [Option.some.injEq] at h
          cases s with
          | mapping => simp [Constraint.ok] at hx
          | simple v =>
            cases v <;> try (simp [Constraint.ok] at hx; done)
            rename_i i
            simp only [Constraint.ok, Bound.le, Bool.and_eq_true, decide_eq_true_eq] at hx
            refine ⟨.int i, ?_, rfl⟩
            rw [← h]
            simp only [List.mem_map, List.mem_range, Val.int.injEq]
            exact ⟨(i - l).toNat, by omega, by omega⟩
        · exact absurd h (by simp)
  | _ => simp [Constraint.listed] at h

theorem entails_ok (s : Subject) (c d : Constraint) (h : c.entails d = true) (hc : c.ok s = true) : d.ok s = true := by
  rw [conj_ok] at hc ⊢
  simp only [List.all_eq_true] at hc ⊢
  intro y hy
  simp only [Constraint.entails, List.all_eq_true, List.any_eq_true, Bool.or_eq_true] at h
  obtain ⟨x, hx, hw | hw⟩ := h y hy
  · exact within_ok s x y hw (hc x hx)
  · cases hl : x.listed with
    | none => simp [hl] at hw
    | some vs =>
      simp only [hl, List.all_eq_true] at hw
      obtain ⟨v, hv, rfl⟩ := listed_ok s x vs hl (hc x hx)
      exact hw v hv

theorem conj_nil {c : Constraint} (h : c.conj.isEmpty = true) (s : Subject) : c.ok s = true := by
  rw [conj_ok]
  cases hc : c.conj <;> simp_all

theorem presentNames_names : ∀ (cs ds : Comps) (vs : Vals), cs.names = ds.names → presentNames cs vs = presentNames ds vs
  | .nil, .nil, _, _ => rfl
  | .nil, .cons .., _, h => by simp [Comps.names] at h
  | .cons .., .nil, _, h => by simp [Comps.names] at h
  | .cons f t cs, .cons g s ds, .nil, h => rfl
  | .cons f t cs, .cons g s ds, .cons v vs, h => by
    simp only [Comps.names, List.cons.injEq] at h
    simp only [presentNames, presentNames_names cs ds vs h.2, h.1]

theorem tagSets_get? : ∀ (cs ds : Comps) (i : Nat), cs.tagSets = ds.tagSets →
    (cs.get? i).map (fun p => p.2.tags) = (ds.get? i).map (fun p => p.2.tags)
  | .nil, .nil, _, _ => rfl
  | .nil, .cons .., _, h => by simp [Comps.tagSets] at h
  | .cons .., .nil, _, h => by simp [Comps.tagSets] at h
  | .cons f t cs, .cons g s ds, 0, h => by
    simp only [Comps.tagSets, List.cons.injEq] at h
    simp [Comps.get?, h.1]
  | .cons f t cs, .cons g s ds, i + 1, h => by
    simp only [Comps.tagSets, List.cons.injEq] at h
    simp only [Comps.get?, tagSets_get? cs ds i h.2]

theorem sameKey_setKey (t s : Ty) (v : Val) (hr : t.relaxes s = true) (h : t.sameKey s = true) : setKey t v = setKey s v := by
  cases t <;> cases s <;> simp only [Ty.relaxes, Bool.false_eq_true] at hr
  case choice.choice a cs b ds =>
    simp only [Ty.sameKey, Ty.tags, Bool.and_eq_true, beq_iff_eq] at h
    cases v <;> try (simp only [setKey, Ty.tags, h.1]; done)
    rename_i i v
    have := tagSets_get? cs ds i h.2
    simp only [setKey, h.1]
    cases hc : cs.get? i <;> cases hd : ds.get? i <;> simp_all
  all_goals
    simp only [Ty.sameKey, Ty.tags, Bool.and_eq_true, beq_iff_eq] at h
    simp only [setKey, Ty.tags, h]

/-- The restriction on the components present holds again. -/
theorem record_ok {a b : Attrs} {cs ds : Comps} (h : relaxesRecord a b cs ds = true) (vs : Vals)
    (hb : b.spec.ok (.mapping (presentNames ds vs).length (presentNames ds vs)) = true) :
    a.spec.ok (.mapping (presentNames cs vs).length (presentNames cs vs)) = true := by
  simp only [relaxesRecord, Bool.or_eq_true, Bool.and_eq_true, beq_iff_eq] at h
  rcases h with h | ⟨⟨h1, h2⟩, -⟩
  · exact conj_nil h _
  · rw [presentNames_names cs ds vs h2]
    exact entails_ok _ _ _ h1 hb

theorem record_dec {a b : Attrs} {cs ds : Comps} (h : relaxesRecord a b cs ds = true) (vs : Vals)
    (hb : (!ds.noOpen || b.spec.ok (.mapping (presentNames ds vs).length (presentNames ds vs))) = true) :
    (!cs.noOpen || a.spec.ok (.mapping (presentNames cs vs).length (presentNames cs vs))) = true := by
  rw [Bool.or_eq_true] at hb ⊢
  rcases hb with hb | hb
  · have h' := h
    simp only [relaxesRecord, Bool.or_eq_true, Bool.and_eq_true, beq_iff_eq] at h'
    rcases h' with h' | ⟨-, h'⟩
    · exact .inr (conj_nil h' _)
    · rcases h' with h' | h'
      · exact .inl h'
      · simp [h'] at hb
  · exact .inr (record_ok h vs hb)

mutual
theorem relaxes_enc : ∀ (t s : Ty), t.relaxes s = true → ∀ (ine : Bool) (v : Val) (b : Bytes), enc ine s v = some b →
    enc ine t v = some b
  | .prim k a, s, h, ine, v, b, he => by
    cases s <;> simp only [Ty.relaxes, Bool.false_eq_true, Bool.and_eq_true, beq_iff_eq] at h
    obtain ⟨⟨rfl, h2⟩, -⟩ := h
    simpa only [enc, h2] using he
  | .seq i a cs, s, h, ine, v, b, he => by
    cases s <;> simp only [Ty.relaxes, Bool.false_eq_true, Bool.and_eq_true, beq_iff_eq] at h
    rename_i j a' ds
    obtain ⟨⟨⟨rfl, h2⟩, h3⟩, h4⟩ := h
    cases v <;> try (simp [enc] at he; done)
    rename_i vs
    simp only [enc] at he ⊢
    split at he
    · rename_i hok
      rw [if_pos (record_ok h3 vs hok)]
      cases hc : encComps ds vs with
      | none => simp [hc] at he
      | some ps =>
        obtain ⟨qs, hq, hs, hk⟩ := relaxes_encComps cs ds i h4 vs ps hc
        rw [hq]
        simp only [hc] at he
        have hcontent : (if i = true then sortBy tagsLe Prod.fst qs else qs).flatMap Prod.snd =
            (if i = true then sortBy tagsLe Prod.fst ps else ps).flatMap Prod.snd := by
          cases i with
          | false => simpa using hs
          | true => rw [hk rfl]
        simp only [hcontent, wrap_bare _ _ _ h2]
        exact he
    · exact absurd he (by simp)
  | .of i a t, s, h, ine, v, b, he => by
    cases s <;> simp only [Ty.relaxes, Bool.false_eq_true, Bool.and_eq_true, beq_iff_eq] at h
    rename_i j a' s
    obtain ⟨⟨⟨rfl, h2⟩, h3⟩, h4⟩ := h
    cases v <;> try (simp [enc] at he; done)
    rename_i vs
    simp only [enc] at he ⊢
    split at he
    · rename_i hok
      rw [if_pos (entails_ok _ _ _ h3 hok)]
      cases hc : mapOpt (fun v => (enc ine s v).map (fun b => (b, v))) vs.toList with
      | none => simp [hc] at he
      | some ps =>
        have hm : mapOpt (fun v => (enc ine t v).map (fun b => (b, v))) vs.toList = some ps := by
          refine mapOpt_mono ?_ _ _ hc
          intro v p hp
          cases hv : enc ine s v with
          | none => simp [hv] at hp
          | some c => rw [relaxes_enc t s h4 ine v c hv]; simpa [hv] using hp
        rw [hm]
        simp only [hc] at he
        simp only [wrap_bare _ _ _ h2]
        exact he
    · exact absurd he (by simp)
  | .choice a cs, s, h, ine, v, b, he => by
    cases s <;> simp only [Ty.relaxes, Bool.false_eq_true, Bool.and_eq_true, beq_iff_eq] at h
    rename_i a' ds
    cases v <;> try (simp [enc] at he; done)
    rename_i i v
    simp only [enc] at he ⊢
    cases hc : encAlt ine ds i v with
    | none => simp [hc] at he
    | some c =>
      rw [relaxes_encAlt cs ds false h.2 ine i v c hc]
      simp only [hc] at he
      simp only [wrap_bare _ _ _ h.1]
      exact he
  | .bad _, s, h, _, _, _, _ => by cases s <;> simp [Ty.relaxes] at h
theorem relaxes_encComps : ∀ (cs ds : Comps) (keys : Bool), cs.relaxes keys ds = true → ∀ (vs : Vals)
    (ps : List (TagSet × Bytes)), encComps ds vs = some ps →
    ∃ qs, encComps cs vs = some qs ∧ qs.flatMap Prod.snd = ps.flatMap Prod.snd ∧ (keys = true → qs = ps)
  | .nil, ds, _, h, vs, ps, he => by
    cases ds <;> simp only [Comps.relaxes, Bool.false_eq_true] at h
    exact ⟨ps, he, rfl, fun _ => rfl⟩
  | .cons f t cs, ds, keys, h, vs, ps, he => by
    cases ds <;> simp only [Comps.relaxes, Bool.false_eq_true, Bool.and_eq_true, beq_iff_eq] at h
    rename_i g s ds
    obtain ⟨⟨⟨h1, h2⟩, h3⟩, h4⟩ := h
    cases vs with
    | nil => simp [encComps] at he
    | cons v vs =>
      simp only [encComps] at he ⊢
      cases hd : encComps ds vs with
      | none => simp [hd] at he
      | some ps' =>
        obtain ⟨qs, hq, hs, hk⟩ := relaxes_encComps cs ds keys h4 vs ps' hd
        simp only [hd] at he
        simp only [hq, h1]
        have done : ∀ ps : List (TagSet × Bytes), some ps' = some ps →
            ∃ rs, some qs = some rs ∧ rs.flatMap Prod.snd = ps.flatMap Prod.snd ∧ (keys = true → rs = ps) := by
          intro ps h; cases h; exact ⟨qs, rfl, hs, hk⟩
        have emit : ∀ (m : Mode) (ps : List (TagSet × Bytes)), (if m = .dflt v then some ps'
            else match enc m.isOpt s v with
              | none => none
              | some b => some ((setKey s v, b) :: ps')) = some ps →
            ∃ rs, (if m = .dflt v then some qs
            else match enc m.isOpt t v with
              | none => none
              | some b => some ((setKey t v, b) :: qs)) = some rs ∧
              rs.flatMap Prod.snd = ps.flatMap Prod.snd ∧ (keys = true → rs = ps) := by
          intro m ps h
          split at h
          · rename_i hm
            rw [if_pos hm]
            exact done ps h
          · rename_i hm
            rw [if_neg hm]
            cases hv : enc m.isOpt s v with
            | none => simp [hv] at h
            | some b =>
              simp only [hv, Option.some.injEq] at h
              rw [relaxes_enc t s h2 _ v b hv]
              refine ⟨_, rfl, ?_, ?_⟩
              · rw [← h]; simp [hs]
              · intro hkey
                rw [← h, hk hkey]
                simp only [hkey, Bool.not_true, Bool.false_or] at h3
                rw [sameKey_setKey t s v h2 (by simpa using h3)]
        cases hm : g.mode <;> cases v <;> simp only [hm] at he ⊢ <;>
          first
          | exact done ps he
          | exact emit _ ps he
          | exact absurd he nofun
theorem relaxes_encAlt : ∀ (cs ds : Comps) (keys : Bool), cs.relaxes keys ds = true → ∀ (ine : Bool) (i : Nat) (v : Val)
    (b : Bytes), encAlt ine ds i v = some b → encAlt ine cs i v = some b
  | .nil, ds, _, h, _, _, _, _, he => by cases ds <;> simp [Comps.relaxes] at h; exact he
  | .cons f t cs, ds, keys, h, ine, i, v, b, he => by
    cases ds <;> simp only [Comps.relaxes, Bool.false_eq_true, Bool.and_eq_true, beq_iff_eq] at h
    rename_i g s ds
    cases i with
    | zero => exact relaxes_enc t s h.1.1.2 ine v b (by simpa only [encAlt] using he)
    | succ i => exact relaxes_encAlt cs ds keys h.2 ine i v b (by simpa only [encAlt] using he)
end

theorem has_last (a b : TagSet) (x : TLV) (c : Bool) (h : a.bare = b.bare) :
    (match a.getLast? with | some t => x.has t | none => c) = (match b.getLast? with | some t => x.has t | none => c) := by
  cases ha : a.getLast? with
  | none =>
    have : a = [] := by simpa using ha
    have : b = [] := (bare_nil a b h).1 this
    simp [this]
  | some l =>
    have hl : a.bare.getLast? = b.bare.getLast? := by rw [h]
    obtain ⟨m, hm, hx⟩ := bare_getLast a b x l hl ha
    rw [hm]
    exact hx.symm

mutual
theorem relaxes_matches : ∀ (t s : Ty), t.relaxes s = true → ∀ x : TLV, t.matches x = s.matches x
  | .prim k a, s, h, x => by
    cases s <;> simp only [Ty.relaxes, Bool.false_eq_true, Bool.and_eq_true, beq_iff_eq] at h
    simp only [Ty.matches, h.1.1, h.1.2]
  | .seq i a cs, s, h, x => by
    cases s <;> simp only [Ty.relaxes, Bool.false_eq_true, Bool.and_eq_true, beq_iff_eq] at h
    simp only [Ty.matches]
    exact has_last _ _ x _ h.1.1.2
  | .of i a t, s, h, x => by
    cases s <;> simp only [Ty.relaxes, Bool.false_eq_true, Bool.and_eq_true, beq_iff_eq] at h
    simp only [Ty.matches]
    exact has_last _ _ x _ h.1.1.2
  | .choice a cs, s, h, x => by
    cases s <;> simp only [Ty.relaxes, Bool.false_eq_true, Bool.and_eq_true, beq_iff_eq] at h
    simp only [Ty.matches, relaxes_matchesC cs _ false h.2 x]
    exact has_last _ _ x _ h.1
  | .bad _, s, h, _ => by cases s <;> simp [Ty.relaxes] at h
theorem relaxes_matchesC : ∀ (cs ds : Comps) (keys : Bool), cs.relaxes keys ds = true → ∀ x : TLV, cs.matches x = ds.matches x
  | .nil, ds, _, h, _ => by cases ds <;> simp [Comps.relaxes] at h; rfl
  | .cons f t cs, ds, keys, h, x => by
    cases ds <;> simp only [Comps.relaxes, Bool.false_eq_true, Bool.and_eq_true, beq_iff_eq] at h
    simp only [Comps.matches, relaxes_matches t _ h.1.1.2, relaxes_matchesC cs _ keys h.2]
end

theorem relaxes_window (x : TLV) : ∀ (cs ds : Comps) (keys : Bool), cs.relaxes keys ds = true →
    cs.windowMatches x = ds.windowMatches x
  | .nil, ds, _, h => by cases ds <;> simp [Comps.relaxes] at h; rfl
  | .cons f t cs, ds, keys, h => by
    cases ds <;> simp only [Comps.relaxes, Bool.false_eq_true, Bool.and_eq_true, beq_iff_eq] at h
    simp only [Comps.windowMatches, h.1.1.1, relaxes_matches t _ h.1.1.2, relaxes_window x cs _ keys h.2]

theorem relaxes_anyLike (t s : Ty) (h : t.relaxes s = true) : t.anyLike = s.anyLike := by
  cases t <;> cases s <;> simp only [Ty.relaxes, Bool.false_eq_true, Bool.and_eq_true, beq_iff_eq] at h <;>
    simp only [Ty.anyLike]
  obtain ⟨⟨rfl, -⟩, -⟩ := h
  rename_i k a b
  cases k <;> rfl

mutual
theorem relaxes_decT : ∀ (t s : Ty), t.relaxes s = true → ∀ (x : TLV) (v : Val), decT s x = some v → decT t x = some v
  | .prim k a, s, h, x, v, hd => by
    cases s <;> simp only [Ty.relaxes, Bool.false_eq_true, Bool.and_eq_true, beq_iff_eq] at h
    obtain ⟨⟨rfl, h2⟩, h3⟩ := h
    rename_i b
    simp only [decT, decPrimT, h2] at hd ⊢
    split at hd
    · rename_i hk; rw [if_pos hk]; exact hd
    · rename_i hk
      rw [if_neg hk]
      cases hu : unwrap b.tags.reverse x with
      | none => simp [hu] at hd
      | some y =>
        simp only [hu] at hd ⊢
        split at hd
        · exact absurd hd (by simp)
        · rename_i hc
          rw [if_neg hc]
          cases hp : decPrim k y.content with
          | none => simp [hp] at hd
          | some w =>
            simp only [hp] at hd ⊢
            split at hd
            · rename_i hok
              rw [if_pos (entails_ok _ _ _ h3 hok)]
              exact hd
            · exact absurd hd (by simp)
  | .seq i a cs, s, h, x, v, hd => by
    cases s <;> simp only [Ty.relaxes, Bool.false_eq_true, Bool.and_eq_true, beq_iff_eq] at h
    rename_i j b ds
    obtain ⟨⟨⟨rfl, h2⟩, h3⟩, h4⟩ := h
    simp only [decT] at hd ⊢
    rw [innerItems_bare a b x h2]
    cases hi : innerItems b x with
    | none => simp [hi] at hd
    | some xs =>
      simp only [hi] at hd ⊢
      have hall : xs.all cs.matches = xs.all ds.matches := by
        congr 1
        funext y
        exact relaxes_matchesC cs ds i h4 y
      have hmono : ∀ vs, (if i = true then (if xs.all ds.matches = true then decSet ds xs else none) else decComps ds xs) = some vs →
          (if i = true then (if xs.all cs.matches = true then decSet cs xs else none) else decComps cs xs) = some vs := by
        intro vs hv
        rw [hall]
        split at hv
        · rename_i hset
          rw [if_pos hset]
          split at hv
          · rename_i hm
            rw [if_pos hm]
            exact relaxes_decSet cs ds i h4 xs vs hv
          · exact absurd hv (by simp)
        · rename_i hset
          rw [if_neg hset]
          exact relaxes_decComps cs ds i h4 xs vs hv
      cases hv : (if i = true then (if xs.all ds.matches = true then decSet ds xs else none) else decComps ds xs) with
      | none => simp only [hv] at hd; exact absurd hd nofun
      | some vs =>
        rw [hmono vs hv]
        simp only [hv] at hd
        dsimp only
        split at hd
        · rename_i hok
          rw [if_pos (record_dec h3 vs hok)]
          exact hd
        · exact absurd hd (by simp)
  | .of i a t, s, h, x, v, hd => by
    cases s <;> simp only [Ty.relaxes, Bool.false_eq_true, Bool.and_eq_true, beq_iff_eq] at h
    rename_i j b s
    simp only [decT] at hd ⊢
    rw [innerItems_bare a b x h.1.1.2]
    cases hi : innerItems b x with
    | none => simp [hi] at hd
    | some xs =>
      simp only [hi] at hd ⊢
      cases hm : mapOpt (decT s) xs with
      | none => simp [hm] at hd
      | some vs =>
        rw [mapOpt_mono (fun y w hy => relaxes_decT t s h.2 y w hy) xs vs hm]
        simpa only [hm] using hd
  | .choice a cs, s, h, x, v, hd => by
    cases s <;> simp only [Ty.relaxes, Bool.false_eq_true, Bool.and_eq_true, beq_iff_eq] at h
    rename_i b ds
    simp only [decT] at hd ⊢
    rw [unwrap_tags a.tags b.tags x h.1]
    cases hb : b.tags with
    | nil =>
      rw [(bare_nil _ _ h.1).2 hb]
      simp only [hb] at hd
      exact relaxes_decAlt cs ds false h.2 0 x v hd
    | cons l ls =>
      cases ha : a.tags with
      | nil => rw [(bare_nil _ _ h.1).1 ha] at hb; exact absurd hb (by simp)
      | cons m ms =>
        simp only [hb] at hd
        dsimp only
        cases hu : unwrap (l :: ls).reverse x with
        | none => simp only [hu] at hd; exact absurd hd nofun
        | some y =>
          simp only [hu] at hd ⊢
          cases hr : readTLV y.content with
          | none => simp [hr] at hd
          | some p =>
            simp only [hr] at hd ⊢
            exact relaxes_decAlt cs ds false h.2 0 _ v hd
  | .bad _, s, h, _, _, _ => by cases s <;> simp [Ty.relaxes] at h
theorem relaxes_decComps : ∀ (cs ds : Comps) (keys : Bool), cs.relaxes keys ds = true → ∀ (xs : List TLV) (vs : Vals),
    decComps ds xs = some vs → decComps cs xs = some vs
  | .nil, ds, _, h, xs, vs, hd => by cases ds <;> simp [Comps.relaxes] at h; exact hd
  | .cons f t cs, ds, keys, h, [], vs, hd => by
    cases ds <;> simp only [Comps.relaxes, Bool.false_eq_true, Bool.and_eq_true, beq_iff_eq] at h
    rename_i g s ds
    simp only [decComps, h.1.1.1] at hd ⊢
    cases hn : decComps ds [] with
    | none => cases hm : g.mode.missing <;> simp [hn, hm] at hd
    | some ws =>
      rw [relaxes_decComps cs ds keys h.2 [] ws hn]
      simpa only [hn] using hd
  | .cons f t cs, ds, keys, h, x :: xs, vs, hd => by
    cases ds <;> simp only [Comps.relaxes, Bool.false_eq_true, Bool.and_eq_true, beq_iff_eq] at h
    rename_i g s ds
    simp only [decComps, h.1.1.1, relaxes_matches t s h.1.1.2, relaxes_anyLike t s h.1.1.2, relaxes_window x cs ds keys h.2]
      at hd ⊢
    split at hd
    · rename_i hc
      rw [if_pos hc]
      cases hv : decT s x with
      | none => simp [hv] at hd
      | some w =>
        cases hn : decComps ds xs with
        | none => simp [hv, hn] at hd
        | some ws =>
          rw [relaxes_decT t s h.1.1.2 x w hv, relaxes_decComps cs ds keys h.2 xs ws hn]
          simpa only [hv, hn] using hd
    · rename_i hc
      rw [if_neg hc]
      cases hn : decComps ds (x :: xs) with
      | none => cases hm : g.mode.missing <;> simp [hn, hm] at hd
      | some ws =>
        rw [relaxes_decComps cs ds keys h.2 (x :: xs) ws hn]
        simpa only [hn] using hd
theorem relaxes_decSet : ∀ (cs ds : Comps) (keys : Bool), cs.relaxes keys ds = true → ∀ (xs : List TLV) (vs : Vals),
    decSet ds xs = some vs → decSet cs xs = some vs
  | .nil, ds, _, h, xs, vs, hd => by cases ds <;> simp [Comps.relaxes] at h; exact hd
  | .cons f t cs, ds, keys, h, xs, vs, hd => by
    cases ds <;> simp only [Comps.relaxes, Bool.false_eq_true, Bool.and_eq_true, beq_iff_eq] at h
    rename_i g s ds
    have hm : t.matches = s.matches := funext (relaxes_matches t s h.1.1.2)
    simp only [decSet, h.1.1.1, hm] at hd ⊢
    cases hw : mapOpt (decT s) (xs.filter s.matches) with
    | none => simp [hw] at hd
    | some ws =>
      cases hn : decSet ds xs with
      | none => simp [hw, hn] at hd
      | some us =>
        rw [mapOpt_mono (fun y w hy => relaxes_decT t s h.1.1.2 y w hy) _ ws hw, relaxes_decSet cs ds keys h.2 xs us hn]
        simpa only [hw, hn] using hd
theorem relaxes_decAlt : ∀ (cs ds : Comps) (keys : Bool), cs.relaxes keys ds = true → ∀ (i : Nat) (x : TLV) (v : Val),
    decAlt ds i x = some v → decAlt cs i x = some v
  | .nil, ds, _, h, i, x, v, hd => by cases ds <;> simp [Comps.relaxes] at h; exact hd
  | .cons f t cs, ds, keys, h, i, x, v, hd => by
    cases ds <;> simp only [Comps.relaxes, Bool.false_eq_true, Bool.and_eq_true, beq_iff_eq] at h
    rename_i g s ds
    simp only [decAlt, relaxes_matches t s h.1.1.2] at hd ⊢
    split at hd
    · rename_i hm
      rw [if_pos hm]
      cases hv : decT s x with
      | none => simp [hv] at hd
      | some w =>
        rw [relaxes_decT t s h.1.1.2 x w hv]
        simpa only [hv] using hd
    · rename_i hm
      rw [if_neg hm]
      exact relaxes_decAlt cs ds keys h.2 (i + 1) x v hd
end

mutual
theorem relaxes_valid : ∀ (t s : Ty), t.relaxes s = true → ∀ v : Val, s.valid v = true → t.valid v = true
  | .prim k a, s, h, v, hv => by
    cases s <;> simp only [Ty.relaxes, Bool.false_eq_true, Bool.and_eq_true, beq_iff_eq] at h
    obtain ⟨⟨rfl, h2⟩, h3⟩ := h
    simp only [Ty.valid, Bool.and_eq_true] at hv ⊢
    refine ⟨⟨hv.1.1, entails_ok _ _ _ h3 hv.1.2⟩, ?_⟩
    rw [h2]
    exact hv.2
  | .seq i a cs, s, h, v, hv => by
    cases s <;> simp only [Ty.relaxes, Bool.false_eq_true, Bool.and_eq_true, beq_iff_eq] at h
    rename_i j b ds
    cases v <;> simp only [Ty.valid, Bool.false_eq_true, Bool.and_eq_true] at hv ⊢
    exact ⟨relaxes_validC cs ds i h.2 _ hv.1, record_ok h.1.2 _ hv.2⟩
  | .of i a t, s, h, v, hv => by
    cases s <;> simp only [Ty.relaxes, Bool.false_eq_true, Bool.and_eq_true, beq_iff_eq] at h
    cases v <;> simp only [Ty.valid, Bool.false_eq_true, Bool.and_eq_true] at hv ⊢
    refine ⟨?_, entails_ok _ _ _ h.1.2 hv.2⟩
    have := hv.1
    rw [Vals.every_iff, List.all_eq_true] at this ⊢
    exact fun w hw => relaxes_valid t _ h.2 w (this w hw)
  | .choice a cs, s, h, v, hv => by
    cases s <;> simp only [Ty.relaxes, Bool.false_eq_true, Bool.and_eq_true, beq_iff_eq] at h
    cases v <;> simp only [Ty.valid, Bool.false_eq_true] at hv ⊢
    exact relaxes_validAlt cs _ false h.2 _ _ hv
  | .bad _, s, h, _, _ => by cases s <;> simp [Ty.relaxes] at h
theorem relaxes_validC : ∀ (cs ds : Comps) (keys : Bool), cs.relaxes keys ds = true → ∀ vs : Vals, ds.valid vs = true →
    cs.valid vs = true
  | .nil, ds, _, h, vs, hv => by cases ds <;> simp [Comps.relaxes] at h; exact hv
  | .cons f t cs, ds, keys, h, vs, hv => by
    cases ds <;> simp only [Comps.relaxes, Bool.false_eq_true, Bool.and_eq_true, beq_iff_eq] at h
    rename_i g s ds
    cases vs with
    | nil => simp [Comps.valid] at hv
    | cons v vs =>
      simp only [Comps.valid, Bool.and_eq_true, h.1.1.1] at hv ⊢
      refine ⟨?_, relaxes_validC cs ds keys h.2 vs hv.2⟩
      have hone := relaxes_valid t s h.1.1.2 v
      have h1 := hv.1
      cases hm : g.mode <;> simp only [hm, Bool.or_eq_true] at h1 ⊢
      · exact hone h1
      · exact h1.imp id hone
      · exact h1.imp id hone
theorem relaxes_validAlt : ∀ (cs ds : Comps) (keys : Bool), cs.relaxes keys ds = true → ∀ (i : Nat) (v : Val),
    ds.validAlt i v = true → cs.validAlt i v = true
  | .nil, ds, _, h, i, v, hv => by cases ds <;> simp [Comps.relaxes] at h; exact hv
  | .cons f t cs, ds, keys, h, i, v, hv => by
    cases ds <;> simp only [Comps.relaxes, Bool.false_eq_true, Bool.and_eq_true, beq_iff_eq] at h
    cases i with
    | zero => exact relaxes_valid t _ h.1.1.2 v (by simpa only [Comps.validAlt] using hv)
    | succ i => exact relaxes_validAlt cs _ keys h.2 i v (by simpa only [Comps.validAlt] using hv)
end

theorem relaxes_encode {t s : Ty} (h : t.relaxes s = true) {v : Val} {b : Bytes} (he : encode s v = some b) :
    encode t v = some b := relaxes_enc t s h false v b he

theorem relaxes_decode {t s : Ty} (h : t.relaxes s = true) {b : Bytes} {r : Val × Bytes} (hd : decode s b = some r) :
    decode t b = some r := by
  simp only [decode] at hd ⊢
  cases hr : readTLV b with
  | none => simp [hr] at hd
  | some p =>
    simp only [hr] at hd ⊢
    cases hv : decT s p.1 with
    | none => simp [hv] at hd
    | some v =>
      rw [relaxes_decT t s h p.1 v hv]
      simpa only [hv] using hd

theorem opt_ext {α : Type} {a b : Option α} (h1 : ∀ x, a = some x → b = some x) (h2 : ∀ x, b = some x → a = some x) : a = b := by
  cases a with
  | some x => exact (h1 x rfl).symm
  | none =>
    cases b with
    | none => rfl
    | some y => exact h2 y rfl

theorem agrees_encode {t s : Ty} (h : t.agrees s = true) (v : Val) : encode t v = encode s v := by
  simp only [Ty.agrees, Bool.and_eq_true] at h
  exact opt_ext (fun _ => relaxes_encode h.2) (fun _ => relaxes_encode h.1)

theorem agrees_decode {t s : Ty} (h : t.agrees s = true) (b : Bytes) : decode t b = decode s b := by
  simp only [Ty.agrees, Bool.and_eq_true] at h
  exact opt_ext (fun _ => relaxes_decode h.2) (fun _ => relaxes_decode h.1)

theorem agrees_valid {t s : Ty} (h : t.agrees s = true) (v : Val) : t.valid v = s.valid v := by
  simp only [Ty.agrees, Bool.and_eq_true] at h
  rw [Bool.eq_iff_iff]
  exact ⟨relaxes_valid s t h.2 v, relaxes_valid t s h.1 v⟩

end Asn1
end Verif
