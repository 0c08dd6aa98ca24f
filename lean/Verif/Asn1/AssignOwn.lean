import Verif.Asn1.AssignNarrow
import Verif.Asn1.BuildValue

/-!
# Objects of the class itself
-/

namespace Verif
namespace Asn1

theorem ofVals_names : ∀ (cs : Comps) (vs : Vals), cs.valid vs = true →
    cs.firm ≤ ((MadeSlots.ofVals cs vs).names cs).length ∧ ((MadeSlots.ofVals cs vs).names cs).length ≤ cs.length
  | .nil, vs, h => by
    cases vs <;> simp only [Comps.valid, Bool.false_eq_true] at h
    simp [MadeSlots.names, Comps.firm]
  | .cons f t cs, vs, h => by
    cases vs <;> simp only [Comps.valid, Bool.false_eq_true, Bool.and_eq_true] at h
    obtain ⟨h1, h2⟩ := ofVals_names cs _ h.2
    simp only [MadeSlots.ofVals]
    split
    · rename_i hm
      have : f.mode ≠ .req := by rintro hc; simp [hc, Mode.missing] at hm
      simp only [MadeSlots.names, Comps.firm, Comps.length]
      refine ⟨?_, by omega⟩
      cases hf : f.mode <;> simp_all
    · simp only [MadeSlots.names, Comps.firm, Comps.length, List.length_cons]
      refine ⟨?_, by omega⟩
      split <;> omega

mutual
/-- Every part of an object of the class meets its constraint, as it must to be made at all. -/
theorem Made.ofVal_legal : ∀ (t : Ty) (v : Val), t.valid v = true → (Made.ofVal t v).legal = true
  | .prim k a, v, h => by
    simp only [Ty.valid, Bool.and_eq_true] at h
    simp only [Made.ofVal, Made.legal, Bool.and_eq_true]
    refine ⟨?_, h.1.2⟩
    have := h.1.1
    cases k <;> cases v <;> simp_all [primKind, primLegal]
  | .bad _, v, h => by simp [Ty.valid] at h
  | .seq s a cs, v, h => by
    cases v <;> simp only [Ty.valid, Bool.false_eq_true, Bool.and_eq_true] at h
    simp only [Made.ofVal, Made.legal, MadeSlots.ofVals_legal cs _ h.1]
  | .of s a t, v, h => by
    cases v <;> simp only [Ty.valid, Bool.false_eq_true, Bool.and_eq_true] at h
    simp only [Made.ofVal, Made.legal]
    rename_i vs
    replace h := h.1
    induction vs using Vals.rec (motive_1 := fun _ => True) with
    | nil => simp only [MadeList.ofVals, MadeList.legal]
    | cons v vs _ ih =>
      simp only [Vals.every, Bool.and_eq_true] at h
      simp only [MadeList.ofVals, MadeList.legal, Made.ofVal_legal t v h.1, ih h.2, Bool.and_self]
    | _ => trivial
  | .choice a cs, v, h => by
    cases v <;> simp only [Ty.valid, Bool.false_eq_true] at h
    simp only [Made.ofVal, Made.legal, Made.ofAlt_legal cs _ _ h]
theorem MadeSlots.ofVals_legal : ∀ (cs : Comps) (vs : Vals), cs.valid vs = true → (MadeSlots.ofVals cs vs).legal = true
  | .nil, vs, h => by
    cases vs <;> simp only [Comps.valid, Bool.false_eq_true] at h
    simp [MadeSlots.ofVals, MadeSlots.legal]
  | .cons f t cs, vs, h => by
    cases vs <;> simp only [Comps.valid, Bool.false_eq_true, Bool.and_eq_true] at h
    simp only [MadeSlots.ofVals]
    split
    · simp only [MadeSlots.legal, MadeSlots.ofVals_legal cs _ h.2]
    · rename_i hm
      simp only [MadeSlots.legal, MadeSlots.ofVals_legal cs _ h.2, Made.ofVal_legal t _ (valid_put h.1 hm), Bool.and_self]
theorem Made.ofAlt_legal : ∀ (cs : Comps) (i : Nat) (v : Val), cs.validAlt i v = true → (Made.ofAlt cs i v).legal = true
  | .nil, _, _, h => by simp [Comps.validAlt] at h
  | .cons _ t _, 0, v, h => by rw [Made.ofAlt]; exact Made.ofVal_legal t v (by simpa only [Comps.validAlt] using h)
  | .cons _ _ cs, i + 1, v, h => by rw [Made.ofAlt]; exact Made.ofAlt_legal cs i v (by simpa only [Comps.validAlt] using h)
end

mutual
/-- They are encoded as their values are. -/
theorem Made.ofVal_enc : ∀ (t : Ty) (ine : Bool) (v : Val), t.neutral = true → t.valid v = true → (Made.ofVal t v).enc ine = enc ine t v
  | .prim k a, ine, v, _, h => by simp only [Made.ofVal, Made.enc, enc]
  | .bad _, ine, v, _, h => by simp [Ty.valid] at h
  | .seq s a cs, ine, v, hn, h => by
    cases v <;> simp only [Ty.valid, Bool.false_eq_true, Bool.and_eq_true] at h
    simp only [Ty.neutral, Bool.and_eq_true] at hn
    simp only [Made.ofVal, Made.enc, enc, MadeSlots.ofVals_enc cs _ hn.2 h.1]
    obtain ⟨h1, h2⟩ := ofVals_names cs _ h.1
    rw [if_pos h.2, if_pos (Constraint.ok_of_granted h1 h2 _ _ hn.1)]
    rfl
  | .of s a t, ine, v, hn, h => by
    cases v <;> simp only [Ty.valid, Bool.false_eq_true, Bool.and_eq_true] at h
    rename_i vs
    simp only [Ty.neutral] at hn
    have key : ∀ ws : Vals, ws.every t.valid = true →
        (MadeList.ofVals (Made.ofVal t) ws).enc ine = mapOpt (enc ine t) ws.toList ∧ (MadeList.ofVals (Made.ofVal t) ws).toList.length = ws.length := by
      intro ws hw
      induction ws using Vals.rec (motive_1 := fun _ => True) with
      | nil => simp [MadeList.ofVals, MadeList.enc, Vals.toList, mapOpt, MadeList.toList, Vals.length]
      | cons w ws _ ih =>
        simp only [Vals.every, Bool.and_eq_true] at hw
        obtain ⟨i1, i2⟩ := ih hw.2
        simp only [MadeList.ofVals, MadeList.enc, Vals.toList, mapOpt, MadeList.toList, Vals.length, List.length_cons,
          Made.ofVal_enc t ine w hn hw.1, i1, i2, and_true]
        cases enc ine t w <;> cases mapOpt (enc ine t) ws.toList <;> rfl
      | _ => trivial
    obtain ⟨k1, k2⟩ := key vs h.1
    rw [enc_of_eq]
    simp only [Made.ofVal, Made.enc, k1, k2]
    rfl
  | .choice a cs, ine, v, hn, h => by
    cases v <;> simp only [Ty.valid, Bool.false_eq_true] at h
    simp only [Ty.neutral] at hn
    simp only [Made.ofVal, Made.enc, enc, Made.ofAlt_enc cs ine _ _ hn h]
    rfl
theorem MadeSlots.ofVals_enc : ∀ (cs : Comps) (vs : Vals), cs.neutral = true → cs.valid vs = true →
    MadeSlots.enc cs (MadeSlots.ofVals cs vs) = encComps cs vs
  | .nil, vs, _, h => by
    cases vs <;> simp only [Comps.valid, Bool.false_eq_true] at h
    simp [MadeSlots.ofVals, MadeSlots.enc, encComps, Comps.optional]
  | .cons f t cs, vs, hn, h => by
    cases vs <;> simp only [Comps.valid, Bool.false_eq_true, Bool.and_eq_true] at h
    simp only [Comps.neutral, Bool.and_eq_true] at hn
    simp only [MadeSlots.ofVals]
    split
    · rename_i hm
      rw [encComps_missing hm]
      simp only [MadeSlots.enc, missing_not_req hm, Bool.false_eq_true, if_false, MadeSlots.ofVals_enc cs _ hn.2 h.2]
    · rename_i v vs hm
      have hv := valid_put h.1 hm
      have ha : v ≠ .absent := by rintro rfl; rw [Ty.valid_absent] at hv; simp at hv
      rw [encComps_present ha]
      simp only [MadeSlots.enc, MadeSlots.ofVals_enc cs _ hn.2 h.2, Made.ofVal_value t v hv, Made.ofVal_enc t _ v hn.1.2 hv,
        Made.ofVal_key hv, Made.ofVal_ty hv]
      cases encComps cs vs with
      | none => rfl
      | some ps =>
        simp only [Option.bind_some]
        split
        · rfl
        · cases enc f.mode.isOpt t v with
          | none => rfl
          | some b => simp [Field.wrap, putOpen, sameType]
theorem Made.ofAlt_enc : ∀ (cs : Comps) (ine : Bool) (i : Nat) (v : Val), cs.neutral = true → cs.validAlt i v = true →
    (Made.ofAlt cs i v).enc ine = encAlt ine cs i v
  | .nil, _, _, _, _, h => by simp [Comps.validAlt] at h
  | .cons _ t _, ine, 0, v, hn, h => by
    simp only [Comps.neutral, Bool.and_eq_true] at hn
    rw [Made.ofAlt, encAlt]
    exact Made.ofVal_enc t ine v hn.1.2 (by simpa only [Comps.validAlt] using h)
  | .cons _ _ cs, ine, i + 1, v, hn, h => by
    simp only [Comps.neutral, Bool.and_eq_true] at hn
    rw [Made.ofAlt, encAlt]
    exact Made.ofAlt_enc cs ine i v hn.2 (by simpa only [Comps.validAlt] using h)
end

end Asn1
end Verif
