import Verif.Spec.Stands
import Verif.Asn1.OpenEnc
import Verif.Asn1.BuildSteps

/-!
# Objects of other classes are encoded as the values they stand for
-/

namespace Verif
namespace Asn1

theorem encComps_missing {f : Field} {t : Ty} {cs : Comps} {v : Val} {vs : Vals} (hv : f.mode.missing = some v) :
    encComps (.cons f t cs) (.cons v vs) = encComps cs vs := by
  cases hm : f.mode with
  | req => simp [hm, Mode.missing] at hv
  | opt =>
    simp only [hm, Mode.missing, Option.some.injEq] at hv
    rw [encComps_absent hv.symm]
    cases encComps cs vs <;> simp [hm, Mode.isReq]
  | dflt d =>
    simp only [hm, Mode.missing, Option.some.injEq] at hv
    subst hv
    by_cases ha : d = .absent
    · rw [encComps_absent ha]
      cases encComps cs vs <;> simp [hm, Mode.isReq]
    · rw [encComps_present ha]
      cases encComps cs vs <;> simp [hm]

theorem missing_not_req {m : Mode} {v : Val} (h : m.missing = some v) : m.isReq = false := by
  cases m <;> simp [Mode.missing, Mode.isReq] at h ⊢

mutual
/-- If the object can be encoded, so can the value, to the same octets. -/
theorem stands_enc : ∀ {ine : Bool} {t : Ty} {o : Made} {v : Val}, Stands ine t o v → ∀ b, o.enc ine = some b → enc ine t v = some b
  | _, _, _, _, .simple ine k a a' v ht hs, b, h => by
    simp only [Made.enc] at h
    simp only [enc, ← ht, h]
  | _, _, _, _, .seq ine isSet a a' cs cs' ss vs ht hs hss, b, h => by
    simp only [Made.enc] at h
    split at h
    rotate_left
    · simp at h
    rename_i hok
    cases hp : MadeSlots.enc cs ss with
    | none => simp [hp] at h
    | some ps =>
      simp only [hp] at h
      obtain ⟨qs, hq, h1, h2⟩ := standsSlots_enc hss ps hp
      simp only [enc]
      rw [if_pos (hs hok)]
      simp only [hq]
      cases isSet with
      | false =>
        simp only [Bool.false_eq_true, if_false] at h ⊢
        rw [List.flatMap_def, ← h1, ← List.flatMap_def, ← ht]
        exact h
      | true =>
        rw [h2 rfl, ← ht]
        exact h
  | _, _, _, _, .of ine isSet a a' t t' os vs ht hs hl, b, h => by
    simp only [Made.enc] at h
    rw [enc_of_eq]
    have hn := standsList_length hl
    rw [hn] at h
    split at h
    rotate_left
    · simp at h
    rename_i hok
    rw [if_pos (hs hok)]
    cases hp : os.enc ine with
    | none => simp [hp] at h
    | some bs =>
      simp only [hp] at h
      rw [standsList_enc hl bs hp, ← ht]
      exact h
  | _, _, _, _, .choice ine a a' cs cs' i j f t o v ht hj hv, b, h => by
    simp only [Made.enc] at h
    simp only [enc, encAlt_get hj]
    cases hp : o.enc ine with
    | none => simp [hp] at h
    | some c =>
      simp only [hp] at h
      rw [stands_enc hv c hp, ← ht]
      exact h
  | _, _, _, _, .alternative ine a' cs' j f t o v ht hj hv, b, h => by
    simp only [enc, encAlt_get hj, stands_enc hv b h, ht, wrap]
    split
    · rename_i hb
      simp only [Bool.and_eq_true, List.isEmpty_iff] at hb
      rw [hb.2]
    · rfl
  | _, _, _, _, .any ine a' o c ht hs hc, b, h => by
    rw [hc] at h
    simp only [enc, encPrim, ht, Option.bind_some, wrap]
    exact h
theorem standsSlots_enc : ∀ {isSet : Bool} {cs' cs : Comps} {ss : MadeSlots} {vs : Vals}, StandsSlots isSet cs' cs ss vs →
    ∀ ps, MadeSlots.enc cs ss = some ps → ∃ qs, encComps cs' vs = some qs ∧ ps.map Prod.snd = qs.map Prod.snd ∧
      (isSet = true → qs = ps)
  | _, _, _, _, _, .nil isSet, ps, h => by
    simp only [MadeSlots.enc, Comps.optional, if_true, Option.some.injEq] at h
    subst h
    exact ⟨[], rfl, rfl, fun _ => rfl⟩
  | _, _, _, _, _, .gap isSet f f' t t' cs cs' ss v vs hm hv hs, ps, h => by
    simp only [MadeSlots.enc] at h
    rw [hm, missing_not_req hv] at h
    obtain ⟨qs, h1, h2⟩ := standsSlots_enc hs ps (by simpa using h)
    exact ⟨qs, by rw [encComps_missing hv]; exact h1, h2⟩
  | _, _, _, _, _, .rest isSet f f' t t' cs cs' v vs hm hv hs, ps, h => by
    rw [MadeSlots.enc_rest] at h
    rw [hm, missing_not_req hv] at h
    obtain ⟨qs, h1, h2⟩ := standsSlots_enc hs ps (by simpa using h)
    exact ⟨qs, by rw [encComps_missing hv]; exact h1, h2⟩
  | _, _, _, _, _, .put isSet f f' t t' cs cs' o ss v vs hm ho ha hd hk hv hs, ps, h => by
    simp only [MadeSlots.enc] at h
    cases hp : MadeSlots.enc cs ss with
    | none => simp [hp] at h
    | some rs =>
      simp only [hp] at h
      obtain ⟨qs, h1, h2, h3⟩ := standsSlots_enc hs rs hp
      rw [encComps_present ha, h1, Option.bind_some, ← hm]
      by_cases hdf : f.mode = .dflt o.value
      · rw [if_pos hdf] at h
        have := hd _ hdf
        rw [this] at hdf
        rw [if_pos hdf]
        simp only [Option.some.injEq] at h
        subst h
        exact ⟨qs, rfl, h2, h3⟩
      · rw [if_neg hdf] at h
        have hdf' : f.mode ≠ .dflt v := by
          intro hc
          rw [hd _ hc] at hdf
          exact hdf hc
        rw [if_neg hdf']
        cases hb : o.enc f.mode.isOpt with
        | none => simp [hb] at h
        | some b =>
          simp only [hb] at h
          have hw : f.wrap t o.ty b = some b := by
            rcases ho with ho | ho
            · simp [Field.wrap, ho]
            · simp [Field.wrap, putOpen, ho]
          simp only [hw, Option.map_some, Option.some.injEq] at h
          subst h
          rw [stands_enc hv b hb]
          refine ⟨_, rfl, by simp [h2], fun hset => ?_⟩
          rw [h3 hset, hk hset]
  | _, _, _, _, _, .opened f f' a a' cs cs' o ss b vs hm ho hn ht hsp hd hb hs, ps, h => by
    simp only [MadeSlots.enc] at h
    cases hp : MadeSlots.enc cs ss with
    | none => simp [hp] at h
    | some rs =>
      simp only [hp] at h
      obtain ⟨qs, h1, h2, _⟩ := standsSlots_enc hs rs hp
      rw [encComps_present (by simp), h1, Option.bind_some, ← hm, if_neg (hd _)]
      rw [if_neg (hd _)] at h
      simp only [hb] at h
      have hsome : f.openType.isSome = true := by
        cases hx : f.openType with
        | none => exact absurd hx ho
        | some _ => rfl
      simp only [Field.wrap, hsome, if_true, putOpen, hn, Bool.false_eq_true, if_false, encode, enc, encPrim, Option.bind_some, ht] at h
      simp only [enc, encPrim, Option.bind_some]
      cases hx : wrap false a'.tags b with
      | none => simp [hx] at h
      | some c =>
        simp only [hx, Option.map_some, Option.some.injEq] at h
        subst h
        exact ⟨_, rfl, by simp [h2], fun hset => by simp at hset⟩
theorem standsList_enc : ∀ {ine : Bool} {t : Ty} {os : MadeList} {vs : Vals}, StandsList ine t os vs → ∀ bs, os.enc ine = some bs →
    mapOpt (enc ine t) vs.toList = some bs
  | _, _, _, _, .nil ine t, bs, h => by
    simp only [MadeList.enc, Option.some.injEq] at h
    subst h
    rfl
  | _, _, _, _, .cons ine t o os v vs hv hl, bs, h => by
    simp only [MadeList.enc] at h
    cases h1 : o.enc ine <;> simp only [h1, reduceCtorEq] at h
    cases h2 : os.enc ine <;> simp only [h2, reduceCtorEq, Option.some.injEq] at h
    subst h
    simp only [Vals.toList, mapOpt, stands_enc hv _ h1, standsList_enc hl _ h2]
theorem standsList_length : ∀ {ine : Bool} {t : Ty} {os : MadeList} {vs : Vals}, StandsList ine t os vs → os.toList.length = vs.length
  | _, _, _, _, .nil _ _ => rfl
  | _, _, _, _, .cons _ _ _ _ _ _ _ hl => by
    simp only [MadeList.toList, List.length_cons, Vals.length, standsList_length hl]
end

/-! ## Legality -/

theorem valid_missing {f : Field} {t : Ty} {cs : Comps} {v : Val} {vs : Vals} (hv : f.mode.missing = some v) :
    (Comps.cons f t cs).valid (.cons v vs) = cs.valid vs := by
  cases hm : f.mode <;> simp_all [Mode.missing, Comps.valid]

theorem validAlt_at : ∀ (cs : Comps) (j : Nat) (f : Field) (t : Ty) (v : Val), cs.get? j = some (f, t) → cs.validAlt j v = t.valid v
  | .nil, j, f, t, v, h => by cases j <;> simp [Comps.get?] at h
  | .cons g u cs, 0, f, t, v, h => by simp only [Comps.get?, Option.some.injEq, Prod.mk.injEq] at h; rw [Comps.validAlt, h.2]
  | .cons g u cs, j + 1, f, t, v, h => by simp only [Comps.get?] at h; rw [Comps.validAlt]; exact validAlt_at cs j f t v h

theorem faithfulAlt_get : ∀ (cs : Comps) (j : Nat) (f : Field) (t : Ty) (v : Val), cs.get? j = some (f, t) → cs.faithfulAlt j v = t.faithful v
  | .nil, j, f, t, v, h => by cases j <;> simp [Comps.get?] at h
  | .cons g u cs, 0, f, t, v, h => by simp only [Comps.get?, Option.some.injEq, Prod.mk.injEq] at h; rw [Comps.faithfulAlt, h.2]
  | .cons g u cs, j + 1, f, t, v, h => by simp only [Comps.get?] at h; rw [Comps.faithfulAlt]; exact faithfulAlt_get cs j f t v h

theorem ok_falsy {c : Constraint} (h : c.truthy = false) (s : Subject) : c.ok s = true := by
  unfold Constraint.truthy at h
  split at h <;> simp_all [Constraint.ok, Constraints.all]
  cases s <;> simp [Constraint.ok]

theorem valid_any {a : Attrs} {b : Bytes} (hs : a.spec.truthy = false) (ha : Ty.faithful (.prim .any a) (.octets b) = true) :
    Ty.valid (.prim .any a) (.octets b) = true := by
  simp only [Ty.valid, primLegal, ok_falsy hs, Bool.and_self, Bool.true_and]
  simp only [Ty.faithful] at ha
  split
  · simp_all
  · rfl

mutual
/-- What an object stands for is a legal value, if the object can be encoded. -/
theorem stands_valid : ∀ {ine : Bool} {t : Ty} {o : Made} {v : Val}, Stands ine t o v → ∀ b, o.enc ine = some b → o.legal = true →
    t.faithful v = true → t.valid v = true
  | _, _, _, _, .simple ine k a a' v ht hs, b, h, hl, ha => by
    simp only [Made.enc] at h
    simp only [Made.legal, Bool.and_eq_true] at hl
    cases hp : encPrim k v with
    | none => simp [hp] at h
    | some c =>
      simp only [Ty.valid, primLegal_of_enc k _ v c hl.1 hp ha, hs hl.2, Bool.and_self, Bool.true_and]
      split
      · simp_all [Ty.faithful]
      · rfl
  | _, _, _, _, .seq ine isSet a a' cs cs' ss vs ht hs hss, b, h, hl, ha => by
    simp only [Made.enc] at h
    split at h
    rotate_left
    · simp at h
    rename_i hok
    cases hp : MadeSlots.enc cs ss with
    | none => simp [hp] at h
    | some ps =>
      simp only [Ty.valid, Bool.and_eq_true]
      exact ⟨standsSlots_valid hss ps hp hl ha, hs hok⟩
  | _, _, _, _, .of ine isSet a a' t t' os vs ht hs hl, b, h, hg, ha => by
    simp only [Made.enc] at h
    rw [standsList_length hl] at h
    split at h
    rotate_left
    · simp at h
    rename_i hok
    cases hp : os.enc ine with
    | none => simp [hp] at h
    | some bs =>
      simp only [Ty.valid, Bool.and_eq_true]
      exact ⟨standsList_valid hl bs hp hg ha, hs hok⟩
  | _, _, _, _, .choice ine a a' cs cs' i j f t o v ht hj hv, b, h, hl, ha => by
    simp only [Made.enc] at h
    cases hp : o.enc ine with
    | none => simp [hp] at h
    | some c =>
      simp only [Ty.valid, validAlt_at cs' j f t v hj]
      exact stands_valid hv c hp hl (by rw [Ty.faithful, faithfulAlt_get cs' j f t v hj] at ha; exact ha)
  | _, _, _, _, .alternative ine a' cs' j f t o v ht hj hv, b, h, hl, ha => by
    simp only [Ty.valid, validAlt_at cs' j f t v hj]
    exact stands_valid hv b h hl (by rw [Ty.faithful, faithfulAlt_get cs' j f t v hj] at ha; exact ha)
  | _, _, _, _, .any ine a' o c ht hs hc, b, h, hl, ha => valid_any hs ha
theorem standsSlots_valid : ∀ {isSet : Bool} {cs' cs : Comps} {ss : MadeSlots} {vs : Vals}, StandsSlots isSet cs' cs ss vs →
    ∀ ps, MadeSlots.enc cs ss = some ps → ss.legal = true → cs'.faithful vs = true → cs'.valid vs = true
  | _, _, _, _, _, .nil isSet, ps, h, _, _ => rfl
  | _, _, _, _, _, .gap isSet f f' t t' cs cs' ss v vs hm hv hs, ps, h, hl, ha => by
    simp only [MadeSlots.enc] at h
    rw [hm, missing_not_req hv] at h
    rw [valid_missing hv]
    simp only [Comps.faithful, Bool.and_eq_true] at ha
    exact standsSlots_valid hs ps (by simpa using h) hl ha.2
  | _, _, _, _, _, .rest isSet f f' t t' cs cs' v vs hm hv hs, ps, h, hl, ha => by
    rw [MadeSlots.enc_rest] at h
    rw [hm, missing_not_req hv] at h
    rw [valid_missing hv]
    simp only [Comps.faithful, Bool.and_eq_true] at ha
    exact standsSlots_valid hs ps (by simpa using h) hl ha.2
  | _, _, _, _, _, .put isSet f f' t t' cs cs' o ss v vs hm ho hab hd hk hv hs, ps, h, hl, ha => by
    simp only [MadeSlots.enc] at h
    simp only [MadeSlots.legal, Bool.and_eq_true] at hl
    simp only [Comps.faithful, Bool.and_eq_true] at ha
    cases hp : MadeSlots.enc cs ss with
    | none => simp [hp] at h
    | some rs =>
      simp only [hp] at h
      simp only [Comps.valid, Bool.and_eq_true]
      refine ⟨?_, standsSlots_valid hs rs hp hl.2 ha.2⟩
      by_cases hdf : f.mode = .dflt o.value
      · rw [← hm, hdf, hd _ hdf]
        simp
      · rw [if_neg hdf] at h
        cases hb : o.enc f.mode.isOpt with
        | none => simp [hb] at h
        | some b =>
          have := stands_valid hv b hb hl.1 ha.1
          cases f'.mode <;> simp [this]
  | _, _, _, _, _, .opened f f' a a' cs cs' o ss b vs hm ho hn ht hsp hd hb hs, ps, h, hl, ha => by
    simp only [MadeSlots.enc] at h
    simp only [MadeSlots.legal, Bool.and_eq_true] at hl
    simp only [Comps.faithful, Bool.and_eq_true] at ha
    cases hp : MadeSlots.enc cs ss with
    | none => simp [hp] at h
    | some rs =>
      simp only [Comps.valid, Bool.and_eq_true]
      refine ⟨?_, standsSlots_valid hs rs hp hl.2 ha.2⟩
      have := valid_any hsp ha.1
      cases f'.mode <;> simp [this]
theorem standsList_valid : ∀ {ine : Bool} {t : Ty} {os : MadeList} {vs : Vals}, StandsList ine t os vs → ∀ bs, os.enc ine = some bs →
    os.legal = true → vs.every t.faithful = true → vs.every t.valid = true
  | _, _, _, _, .nil ine t, bs, h, _, _ => rfl
  | _, _, _, _, .cons ine t o os v vs hv hl, bs, h, hg, ha => by
    simp only [MadeList.enc] at h
    simp only [MadeList.legal, Bool.and_eq_true] at hg
    simp only [Vals.every, Bool.and_eq_true] at ha ⊢
    cases h1 : o.enc ine <;> simp only [h1, reduceCtorEq] at h
    cases h2 : os.enc ine <;> simp only [h2, reduceCtorEq, Option.some.injEq] at h
    exact ⟨stands_valid hv _ h1 hg.1 ha.1, standsList_valid hl _ h2 hg.2 ha.2⟩
end

end Asn1
end Verif
