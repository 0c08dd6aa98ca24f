import Verif.Asn1.AssignEnc

/-!
# Classes whose objects can take the place of others
-/

namespace Verif
namespace Asn1

mutual
/-- `c` is one of the constraints of an intersection. -/
def Constraint.demanded (c : Constraint) : Constraint → Bool
  | .inter ds => c.demandedIn ds
  | _ => false
def Constraint.demandedIn (c : Constraint) : Constraints → Bool
  | .nil => false
  | .cons d ds => (d.truthy && (decide (c = d) || c.demanded d)) || c.demandedIn ds
end

/-- What meets `d` meets `c`: there is no constraint `c`, or `d` is `c`, or an intersection with `c`. -/
def Constraint.weaker (c d : Constraint) : Bool := !c.truthy || decide (c = d) || c.demanded d

mutual
/-- The class `u` is like the type `t`, but for names, open types, named numbers and further constraints on the parts. -/
def Ty.narrower : Ty → Ty → Bool
  | .prim k a, .prim k' a' => decide (k = k') && decide (a.tags = a'.tags) && a.spec.weaker a'.spec
  | .seq s a cs, .seq s' a' cs' => s == s' && decide (a.tags = a'.tags) && !a.spec.truthy && cs.narrower cs'
  | .of s a t, .of s' a' t' => s == s' && decide (a.tags = a'.tags) && a.spec.weaker a'.spec && t.narrower t'
  | .choice a cs, .choice a' cs' => decide (a.tags = a'.tags) && !a.spec.truthy && cs.narrower cs'
  | _, _ => false
def Comps.narrower : Comps → Comps → Bool
  | .nil, .nil => true
  | .cons f t cs, .cons f' t' cs' => decide (f.mode = f'.mode) && t.narrower t' && cs.narrower cs'
  | _, _ => false
end

mutual
theorem Constraint.ok_demanded {c : Constraint} {s : Subject} : ∀ {d : Constraint}, c.demanded d = true → d.ok s = true → c.ok s = true
  | .inter ds, h, hd => by simp only [Constraint.demanded] at h; rw [Constraint.ok] at hd; exact Constraints.ok_demandedIn h hd
  | .union _, h, _ => by simp [Constraint.demanded] at h
  | .size _ _, h, _ => by simp [Constraint.demanded] at h
  | .range _ _, h, _ => by simp [Constraint.demanded] at h
  | .single _, h, _ => by simp [Constraint.demanded] at h
  | .alphabet _, h, _ => by simp [Constraint.demanded] at h
  | .withComps _, h, _ => by simp [Constraint.demanded] at h
  | .invalid, h, _ => by simp [Constraint.demanded] at h
theorem Constraints.ok_demandedIn {c : Constraint} {s : Subject} : ∀ {ds : Constraints}, c.demandedIn ds = true → ds.all s = true → c.ok s = true
  | .nil, h, _ => by simp [Constraint.demandedIn] at h
  | .cons d ds, h, hd => by
    simp only [Constraint.demandedIn, Bool.or_eq_true, Bool.and_eq_true, decide_eq_true_eq] at h
    simp only [Constraints.all, Bool.and_eq_true] at hd
    rcases h with ⟨_, rfl | h⟩ | h
    · exact hd.1
    · exact Constraint.ok_demanded h hd.1
    · exact Constraints.ok_demandedIn h hd.2
end

theorem Constraint.ok_weaker {c d : Constraint} {s : Subject} (h : c.weaker d = true) (hd : d.ok s = true) : c.ok s = true := by
  simp only [Constraint.weaker, Bool.or_eq_true, Bool.not_eq_true', decide_eq_true_eq] at h
  rcases h with (h | rfl) | h
  · exact ok_falsy h s
  · exact hd
  · exact Constraint.ok_demanded h hd

mutual
theorem Constraint.truthy_demanded {c : Constraint} : ∀ {d : Constraint}, c.demanded d = true → d.truthy = true
  | .inter .nil, h => by simp [Constraint.demanded, Constraint.demandedIn] at h
  | .inter (.cons _ _), _ => rfl
  | .union _, h => by simp [Constraint.demanded] at h
  | .size _ _, h => by simp [Constraint.demanded] at h
  | .range _ _, h => by simp [Constraint.demanded] at h
  | .single _, h => by simp [Constraint.demanded] at h
  | .alphabet _, h => by simp [Constraint.demanded] at h
  | .withComps _, h => by simp [Constraint.demanded] at h
  | .invalid, h => by simp [Constraint.demanded] at h
end

theorem Constraint.falsy_weaker {c d : Constraint} (h : c.weaker d = true) (hd : d.truthy = false) : c.truthy = false := by
  simp only [Constraint.weaker, Bool.or_eq_true, Bool.not_eq_true', decide_eq_true_eq] at h
  rcases h with (h | rfl) | h
  · exact h
  · exact hd
  · rw [Constraint.truthy_demanded h] at hd; simp at hd

theorem Ty.narrower_tags : ∀ {t u : Ty}, t.narrower u = true → t.tags = u.tags := by
  intro t u h
  cases t <;> cases u <;> simp only [Ty.narrower, Bool.and_eq_true, decide_eq_true_eq, Bool.false_eq_true] at h <;>
    simp only [Ty.tags]
  · exact h.1.2
  · exact h.1.1.2
  · exact h.1.1.2
  · exact h.1.1

theorem Comps.narrower_get : ∀ {cs cs' : Comps} {j : Nat} {f' : Field} {t' : Ty}, cs.narrower cs' = true → cs'.get? j = some (f', t') →
    ∃ f t, cs.get? j = some (f, t) ∧ t.narrower t' = true
  | .nil, .nil, _, _, _, _, hj => by simp [Comps.get?] at hj
  | .nil, .cons _ _ _, _, _, _, h, _ => by simp [Comps.narrower] at h
  | .cons _ _ _, .nil, _, _, _, h, _ => by simp [Comps.narrower] at h
  | .cons f t cs, .cons f' t' cs', 0, _, _, h, hj => by
    simp only [Comps.narrower, Bool.and_eq_true] at h
    simp only [Comps.get?, Option.some.injEq, Prod.mk.injEq] at hj
    exact ⟨f, t, rfl, hj.2 ▸ h.1.2⟩
  | .cons f t cs, .cons f' t' cs', j + 1, _, _, h, hj => by
    simp only [Comps.narrower, Bool.and_eq_true] at h
    simp only [Comps.get?] at hj
    obtain ⟨g, u, h1, h2⟩ := Comps.narrower_get h.2 hj
    exact ⟨g, u, h1, h2⟩

theorem Comps.narrower_none : ∀ {cs cs' : Comps} {j : Nat}, cs.narrower cs' = true → cs'.get? j = none → cs.get? j = none
  | .nil, .nil, _, _, _ => by simp [Comps.get?]
  | .nil, .cons _ _ _, _, h, _ => by simp [Comps.narrower] at h
  | .cons _ _ _, .nil, _, h, _ => by simp [Comps.narrower] at h
  | .cons f t cs, .cons f' t' cs', 0, h, hj => by simp [Comps.get?] at hj
  | .cons f t cs, .cons f' t' cs', j + 1, h, hj => by
    simp only [Comps.narrower, Bool.and_eq_true] at h
    simp only [Comps.get?] at hj ⊢
    exact Comps.narrower_none h.2 hj

theorem setKey_narrower {t u : Ty} (h : t.narrower u = true) (v : Val) : setKey t v = setKey u v := by
  have ht := Ty.narrower_tags h
  cases t <;> cases u <;> simp only [Ty.narrower, Bool.and_eq_true, decide_eq_true_eq, Bool.false_eq_true] at h
  case choice.choice a cs a' cs' =>
    cases v <;> simp only [setKey] <;> try exact ht
    rename_i i v
    rw [h.1.1]
    split
    · cases hj : cs'.get? i with
      | none => rw [Comps.narrower_none h.2 hj]
      | some p =>
        obtain ⟨f, t, h1, h2⟩ := Comps.narrower_get (f' := p.1) (t' := p.2) h.2 hj
        rw [h1]
        exact Ty.narrower_tags h2
    · rfl
  all_goals simpa only [setKey] using ht

mutual
/-- What stands for a value of a class stands for it as a value of a type that the class is like. -/
theorem stands_narrower : ∀ {ine : Bool} {u : Ty} {o : Made} {v : Val}, Stands ine u o v → ∀ t, t.narrower u = true → Stands ine t o v
  | _, _, _, _, .simple ine k a a' v ht hs, t, h => by
    cases t <;> simp only [Ty.narrower, Bool.and_eq_true, decide_eq_true_eq, Bool.false_eq_true] at h
    obtain ⟨⟨rfl, h1⟩, h2⟩ := h
    exact .simple ine _ a _ v (ht.trans h1.symm) (fun hx => Constraint.ok_weaker h2 (hs hx))
  | _, _, _, _, .seq ine isSet a a' cs cs' ss vs ht hs hss, t, h => by
    cases t <;> simp only [Ty.narrower, Bool.and_eq_true, decide_eq_true_eq, Bool.false_eq_true, beq_iff_eq, Bool.not_eq_true'] at h
    obtain ⟨⟨⟨rfl, h1⟩, h2⟩, h3⟩ := h
    exact .seq ine _ a _ cs _ ss vs (ht.trans h1.symm) (fun _ => ok_falsy h2 _) (standsSlots_narrower hss _ h3)
  | _, _, _, _, .of ine isSet a a' t t' os vs ht hs hl, u, h => by
    cases u <;> simp only [Ty.narrower, Bool.and_eq_true, decide_eq_true_eq, Bool.false_eq_true, beq_iff_eq] at h
    obtain ⟨⟨⟨rfl, h1⟩, h2⟩, h3⟩ := h
    exact .of ine _ a _ t _ os vs (ht.trans h1.symm) (fun hx => Constraint.ok_weaker h2 (hs hx)) (standsList_narrower hl _ h3)
  | _, _, _, _, .choice ine a a' cs cs' i j f t o v ht hj hv, u, h => by
    cases u <;> simp only [Ty.narrower, Bool.and_eq_true, decide_eq_true_eq, Bool.false_eq_true] at h
    obtain ⟨f', t', h1, h2⟩ := Comps.narrower_get h.2 hj
    exact .choice ine a _ cs _ i j f' t' o v (ht.trans h.1.1.symm) h1 (stands_narrower hv t' h2)
  | _, _, _, _, .alternative ine a' cs' j f t o v ht hj hv, u, h => by
    cases u <;> simp only [Ty.narrower, Bool.and_eq_true, decide_eq_true_eq, Bool.false_eq_true] at h
    obtain ⟨f', t', h1, h2⟩ := Comps.narrower_get h.2 hj
    exact .alternative ine _ _ j f' t' o v (h.1.1.trans ht) h1 (stands_narrower hv t' h2)
  | _, _, _, _, .any ine a' o c ht hs hc, t, h => by
    cases t <;> simp only [Ty.narrower, Bool.and_eq_true, decide_eq_true_eq, Bool.false_eq_true] at h
    obtain ⟨⟨rfl, h1⟩, h2⟩ := h
    exact .any ine _ o c (h1.trans ht) (Constraint.falsy_weaker h2 hs) hc
theorem standsSlots_narrower : ∀ {isSet : Bool} {cs' cs : Comps} {ss : MadeSlots} {vs : Vals}, StandsSlots isSet cs' cs ss vs →
    ∀ ds, ds.narrower cs' = true → StandsSlots isSet ds cs ss vs
  | _, _, _, _, _, .nil isSet, ds, h => by
    cases ds <;> simp only [Comps.narrower, Bool.false_eq_true] at h
    exact .nil isSet
  | _, _, _, _, _, .gap isSet f f' t t' cs cs' ss v vs hm hv hs, ds, h => by
    cases ds <;> simp only [Comps.narrower, Bool.false_eq_true, Bool.and_eq_true, decide_eq_true_eq] at h
    exact .gap isSet f _ t _ cs _ ss v vs (hm.trans h.1.1.symm) (h.1.1 ▸ hv) (standsSlots_narrower hs _ h.2)
  | _, _, _, _, _, .rest isSet f f' t t' cs cs' v vs hm hv hs, ds, h => by
    cases ds <;> simp only [Comps.narrower, Bool.false_eq_true, Bool.and_eq_true, decide_eq_true_eq] at h
    exact .rest isSet f _ t _ cs _ v vs (hm.trans h.1.1.symm) (h.1.1 ▸ hv) (standsSlots_narrower hs _ h.2)
  | _, _, _, _, _, .put isSet f f' t t' cs cs' o ss v vs hm ho ha hd hk hv hs, ds, h => by
    cases ds <;> simp only [Comps.narrower, Bool.false_eq_true, Bool.and_eq_true, decide_eq_true_eq] at h
    exact .put isSet f _ t _ cs _ o ss v vs (hm.trans h.1.1.symm) ho ha hd
      (fun hset => (hk hset).trans (setKey_narrower h.1.2 v).symm) (stands_narrower hv _ h.1.2) (standsSlots_narrower hs _ h.2)
  | _, _, _, _, _, .opened f f' a a' cs cs' o ss b vs hm ho hn ht hsp hd hb hs, ds, h => by
    cases ds <;> simp only [Comps.narrower, Bool.false_eq_true, Bool.and_eq_true, decide_eq_true_eq] at h
    rename_i f'' t'' ds
    obtain ⟨⟨h1, h2⟩, h3⟩ := h
    cases t'' <;> simp only [Ty.narrower, Bool.and_eq_true, decide_eq_true_eq, Bool.false_eq_true] at h2
    obtain ⟨⟨rfl, h4⟩, h5⟩ := h2
    exact .opened f _ a _ cs _ o ss b vs (hm.trans h1.symm) ho hn (ht.trans h4.symm) (Constraint.falsy_weaker h5 hsp) hd hb
      (standsSlots_narrower hs _ h3)
theorem standsList_narrower : ∀ {ine : Bool} {u : Ty} {os : MadeList} {vs : Vals}, StandsList ine u os vs → ∀ t, t.narrower u = true →
    StandsList ine t os vs
  | _, _, _, _, .nil ine t, _, _ => .nil ine _
  | _, _, _, _, .cons ine t o os v vs hv hl, u, h => .cons ine u o os v vs (stands_narrower hv u h) (standsList_narrower hl u h)
end

/-! ## Objects of the class itself -/

def MadeList.ofVals (p : Val → Made) : Vals → MadeList
  | .nil => .nil
  | .cons v vs => .cons (p v) (MadeList.ofVals p vs)

mutual
/-- The object of class `t` with value `v`, its parts of the classes of the components. -/
def Made.ofVal : Ty → Val → Made
  | .prim k a, v => .simple k a v
  | .seq s a cs, .record vs => .seq s a cs (MadeSlots.ofVals cs vs)
  | .of s a t, .list vs => .of s a t (MadeList.ofVals (Made.ofVal t) vs)
  | .choice a cs, .alt i v => .choice a cs i (Made.ofAlt cs i v)
  | _, v => .simple .null ⟨[], .inter .nil, []⟩ v
def MadeSlots.ofVals : Comps → Vals → MadeSlots
  | .cons f t cs, .cons v vs => if f.mode.missing = some v then .gap (MadeSlots.ofVals cs vs) else .put (Made.ofVal t v) (MadeSlots.ofVals cs vs)
  | _, _ => .nil
def Made.ofAlt : Comps → Nat → Val → Made
  | .cons _ t _, 0, v => Made.ofVal t v
  | .cons _ _ cs, i + 1, v => Made.ofAlt cs i v
  | .nil, _, v => .simple .null ⟨[], .inter .nil, []⟩ v
end

theorem Ty.valid_absent (t : Ty) : t.valid .absent = false := by
  cases t <;> simp only [Ty.valid]
  rename_i k a
  cases k <;> simp [primLegal]

theorem Made.ofVal_ty {t : Ty} {v : Val} (h : t.valid v = true) : (Made.ofVal t v).ty = t := by
  cases t <;> cases v <;> simp only [Ty.valid, Bool.false_eq_true] at h <;> simp [Made.ofVal, Made.ty]

theorem Made.ofVal_key {t : Ty} {v : Val} (h : t.valid v = true) : (Made.ofVal t v).key = setKey t v := by
  cases t <;> cases v <;> simp only [Ty.valid, Bool.false_eq_true] at h <;>
    simp only [Made.ofVal, Made.key, setKey, Made.ty, Ty.tags] <;> rfl

/-- A component that is not left out. -/
theorem valid_put {f : Field} {t : Ty} {v : Val} (hv : (match f.mode with
     | .req => t.valid v
     | .opt => v == .absent || t.valid v
     | .dflt d => v == d || t.valid v) = true) (hm : f.mode.missing ≠ some v) : t.valid v = true := by
  cases h : f.mode <;> simp only [h, Mode.missing, Bool.or_eq_true, beq_iff_eq] at hv hm
  · exact hv
  · rcases hv with rfl | hv
    · simp at hm
    · exact hv
  · rcases hv with rfl | hv
    · simp at hm
    · exact hv

theorem validAlt_some : ∀ {cs : Comps} {i : Nat} {v : Val}, cs.validAlt i v = true → ∃ f t, cs.get? i = some (f, t) ∧ t.valid v = true ∧
    Made.ofAlt cs i v = Made.ofVal t v
  | .nil, _, _, h => by simp [Comps.validAlt] at h
  | .cons f t _, 0, _, h => ⟨f, t, rfl, by simpa only [Comps.validAlt] using h, by rw [Made.ofAlt]⟩
  | .cons _ _ cs, i + 1, v, h => by
    simp only [Comps.validAlt] at h
    obtain ⟨f, t, h1, h2, h3⟩ := validAlt_some h
    exact ⟨f, t, by simpa only [Comps.get?] using h1, h2, by rw [Made.ofAlt]; exact h3⟩

mutual
theorem Made.ofVal_value : ∀ (t : Ty) (v : Val), t.valid v = true → (Made.ofVal t v).value = v
  | .prim k a, v, _ => by simp [Made.ofVal, Made.value]
  | .bad _, v, h => by simp [Ty.valid] at h
  | .seq s a cs, v, h => by
    cases v <;> simp only [Ty.valid, Bool.false_eq_true, Bool.and_eq_true] at h
    simp only [Made.ofVal, Made.value, MadeSlots.ofVals_values cs _ h.1]
  | .of s a t, v, h => by
    cases v <;> simp only [Ty.valid, Bool.false_eq_true, Bool.and_eq_true] at h
    simp only [Made.ofVal, Made.value, Val.list.injEq]
    rename_i vs
    replace h := h.1
    induction vs using Vals.rec (motive_1 := fun _ => True) with
    | nil => simp only [MadeList.ofVals, MadeList.values]
    | cons v vs _ ih =>
      simp only [Vals.every, Bool.and_eq_true] at h
      simp only [MadeList.ofVals, MadeList.values, Made.ofVal_value t v h.1, ih h.2]
    | _ => trivial
  | .choice a cs, v, h => by
    cases v <;> simp only [Ty.valid, Bool.false_eq_true] at h
    simp only [Made.ofVal, Made.value, Made.ofAlt_value cs _ _ h]
theorem MadeSlots.ofVals_values : ∀ (cs : Comps) (vs : Vals), cs.valid vs = true → (MadeSlots.ofVals cs vs).values cs = vs
  | .nil, vs, h => by
    cases vs <;> simp only [Comps.valid, Bool.false_eq_true] at h
    rfl
  | .cons f t cs, vs, h => by
    cases vs <;> simp only [Comps.valid, Bool.false_eq_true, Bool.and_eq_true] at h
    simp only [MadeSlots.ofVals]
    split
    · rename_i hm
      simp only [MadeSlots.values, hm, Option.getD_some, MadeSlots.ofVals_values cs _ h.2]
    · rename_i hm
      simp only [MadeSlots.values, MadeSlots.ofVals_values cs _ h.2, Made.ofVal_value t _ (valid_put h.1 hm)]
theorem Made.ofAlt_value : ∀ (cs : Comps) (i : Nat) (v : Val), cs.validAlt i v = true → (Made.ofAlt cs i v).value = v
  | .nil, _, _, h => by simp [Comps.validAlt] at h
  | .cons _ t _, 0, v, h => by rw [Made.ofAlt]; exact Made.ofVal_value t v (by simpa only [Comps.validAlt] using h)
  | .cons _ _ cs, i + 1, v, h => by rw [Made.ofAlt]; exact Made.ofAlt_value cs i v (by simpa only [Comps.validAlt] using h)
end

mutual
/-- An object of the class itself stands for its value. -/
theorem Made.ofVal_stands (ine : Bool) : ∀ (t : Ty) (v : Val), t.valid v = true → Stands ine t (Made.ofVal t v) v
  | .prim k a, v, h => by
    simp only [Made.ofVal]
    exact .simple ine k a a v rfl id
  | .bad _, v, h => by simp [Ty.valid] at h
  | .seq s a cs, v, h => by
    cases v <;> simp only [Ty.valid, Bool.false_eq_true, Bool.and_eq_true] at h
    simp only [Made.ofVal]
    exact .seq ine s a a cs cs _ _ rfl (fun _ => h.2) (MadeSlots.ofVals_stands s cs _ h.1)
  | .of s a t, v, h => by
    cases v <;> simp only [Ty.valid, Bool.false_eq_true, Bool.and_eq_true] at h
    simp only [Made.ofVal]
    rename_i vs
    refine .of ine s a a t t _ _ rfl id ?_
    replace h := h.1
    induction vs using Vals.rec (motive_1 := fun _ => True) with
    | nil => rw [MadeList.ofVals]; exact .nil ine t
    | cons v vs _ ih =>
      simp only [Vals.every, Bool.and_eq_true] at h
      rw [MadeList.ofVals]
      exact .cons ine t _ _ v vs (Made.ofVal_stands ine t v h.1) (ih h.2)
    | _ => trivial
  | .choice a cs, v, h => by
    cases v <;> simp only [Ty.valid, Bool.false_eq_true] at h
    simp only [Made.ofVal]
    obtain ⟨f, t, h1, h2⟩ := Made.ofAlt_stands ine cs _ _ h
    exact .choice ine a a cs cs _ _ f t _ _ rfl h1 h2
theorem MadeSlots.ofVals_stands (isSet : Bool) : ∀ (cs : Comps) (vs : Vals), cs.valid vs = true → StandsSlots isSet cs cs (MadeSlots.ofVals cs vs) vs
  | .nil, vs, h => by
    cases vs <;> simp only [Comps.valid, Bool.false_eq_true] at h
    simp only [MadeSlots.ofVals]
    exact .nil isSet
  | .cons f t cs, vs, h => by
    cases vs <;> simp only [Comps.valid, Bool.false_eq_true, Bool.and_eq_true] at h
    simp only [MadeSlots.ofVals]
    split
    · rename_i hm
      exact .gap isSet f f t t cs cs _ _ _ rfl hm (MadeSlots.ofVals_stands isSet cs _ h.2)
    · rename_i v vs hm
      have hv := valid_put h.1 hm
      refine .put isSet f f t t cs cs _ _ _ _ rfl (.inr ?_) ?_ (fun _ _ => Made.ofVal_value t v hv) (fun _ => Made.ofVal_key hv)
        (Made.ofVal_stands f.mode.isOpt t v hv) (MadeSlots.ofVals_stands isSet cs _ h.2)
      · rw [Made.ofVal_ty hv]
        simp [sameType]
      · rintro rfl
        rw [Ty.valid_absent] at hv
        simp at hv
theorem Made.ofAlt_stands (ine : Bool) : ∀ (cs : Comps) (i : Nat) (v : Val), cs.validAlt i v = true →
    ∃ f t, cs.get? i = some (f, t) ∧ Stands ine t (Made.ofAlt cs i v) v
  | .nil, _, _, h => by simp [Comps.validAlt] at h
  | .cons f t _, 0, v, h => by
    rw [Made.ofAlt]
    exact ⟨f, t, rfl, Made.ofVal_stands ine t v (by simpa only [Comps.validAlt] using h)⟩
  | .cons _ _ cs, i + 1, v, h => by
    rw [Made.ofAlt]
    obtain ⟨f, t, h1, h2⟩ := Made.ofAlt_stands ine cs i v (by simpa only [Comps.validAlt] using h)
    exact ⟨f, t, by simpa only [Comps.get?] using h1, h2⟩
end

end Asn1
end Verif
