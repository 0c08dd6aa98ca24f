import Verif.Asn1.BuildGrow
import Verif.Asn1.OpenEnc
import Verif.Asn1.Total

/-!
# Encoding an object is encoding the value it holds
-/

namespace Verif
namespace Asn1

mutual
/-- The constraint holds of every mapping with between `l` and `m` entries. -/
def Constraint.granted (l m : Nat) : Constraint → Bool
  | .inter cs => cs.grant l m
  | .size lo hi => lo.le (.fin l) && (Bound.fin m).le hi
  | c => !c.truthy
def Constraints.grant (l m : Nat) : Constraints → Bool
  | .nil => true
  | .cons c cs => c.granted l m && cs.grant l m
end

/-- The number of mandatory components that have no value unless something is assigned to them. -/
def Comps.firm : Comps → Nat
  | .nil => 0
  | .cons f t cs => (match f.mode, t with
    | .req, .prim _ _ => 1
    | .req, .choice _ _ => 1
    | _, _ => 0) + cs.firm

mutual
/-- A constraint on a SEQUENCE or SET holds of it whichever of the OPTIONAL components there are; defaults are legal values. -/
def Ty.neutral : Ty → Bool
  | .seq _ a cs => a.spec.granted cs.firm cs.length && cs.neutral
  | .of _ _ t => t.neutral
  | .choice _ cs => cs.neutral
  | _ => true
def Comps.neutral : Comps → Bool
  | .nil => true
  | .cons f t cs => (match f.mode with
    | .dflt d => d == .absent || t.valid d
    | _ => true) && t.neutral && cs.neutral
end

mutual
theorem Constraint.grows_of_granted {l m : Nat} : ∀ c : Constraint, c.granted l m = true → c.grows m = true
  | .inter cs, h => Constraints.grow_of_grant cs h
  | .size _ _, h => by
    simp only [Constraint.granted, Bool.and_eq_true] at h
    exact h.2
  | .union .nil, _ => rfl
  | .single [], _ => rfl
  | .alphabet [], _ => rfl
  | .withComps [], _ => rfl
  | .union (.cons _ _), h => by simp [Constraint.granted, Constraint.truthy] at h
  | .single (_ :: _), h => by simp [Constraint.granted, Constraint.truthy] at h
  | .alphabet (_ :: _), h => by simp [Constraint.granted, Constraint.truthy] at h
  | .withComps (_ :: _), h => by simp [Constraint.granted, Constraint.truthy] at h
  | .range _ _, h => by simp [Constraint.granted, Constraint.truthy] at h
  | .invalid, h => by simp [Constraint.granted, Constraint.truthy] at h
theorem Constraints.grow_of_grant {l m : Nat} : ∀ cs : Constraints, cs.grant l m = true → cs.grow m = true
  | .nil, _ => rfl
  | .cons c cs, h => by
    simp only [Constraints.grant, Bool.and_eq_true] at h
    simp only [Constraints.grow, Bool.and_eq_true]
    exact ⟨Constraint.grows_of_granted c h.1, Constraints.grow_of_grant cs h.2⟩
end

mutual
theorem Constraint.ok_of_granted {l m n : Nat} (hl : l ≤ n) (hm : n ≤ m) (ns : List String) : ∀ c : Constraint,
    c.granted l m = true → c.ok (.mapping n ns) = true
  | .inter cs, h => Constraints.all_of_grant hl hm ns cs h
  | .size lo hi, h => by
    simp only [Constraint.granted, Bool.and_eq_true] at h
    simp only [Constraint.ok, Subject.len, Bool.and_eq_true]
    cases lo <;> cases hi <;> simp only [Bound.le, decide_eq_true_eq, Bool.false_eq_true, false_and, and_true] at h ⊢ <;> omega
  | .union .nil, _ => rfl
  | .single [], _ => rfl
  | .alphabet [], _ => rfl
  | .withComps [], _ => rfl
  | .union (.cons _ _), h => by simp [Constraint.granted, Constraint.truthy] at h
  | .single (_ :: _), h => by simp [Constraint.granted, Constraint.truthy] at h
  | .alphabet (_ :: _), h => by simp [Constraint.granted, Constraint.truthy] at h
  | .withComps (_ :: _), h => by simp [Constraint.granted, Constraint.truthy] at h
  | .range _ _, h => by simp [Constraint.granted, Constraint.truthy] at h
  | .invalid, h => by simp [Constraint.granted, Constraint.truthy] at h
theorem Constraints.all_of_grant {l m n : Nat} (hl : l ≤ n) (hm : n ≤ m) (ns : List String) : ∀ cs : Constraints,
    cs.grant l m = true → cs.all (.mapping n ns) = true
  | .nil, _ => rfl
  | .cons c cs, h => by
    simp only [Constraints.grant, Bool.and_eq_true] at h
    simp only [Constraints.all, Bool.and_eq_true]
    exact ⟨Constraint.ok_of_granted hl hm ns c h.1, Constraints.all_of_grant hl hm ns cs h.2⟩
end

mutual
theorem Ty.growing_of_neutral : ∀ t : Ty, t.neutral = true → t.growing = true
  | .prim _ _, _ => rfl
  | .bad _, _ => rfl
  | .seq _ a cs, h => by
    simp only [Ty.neutral, Bool.and_eq_true] at h
    simp only [Ty.growing, Bool.and_eq_true]
    exact ⟨Constraint.grows_of_granted _ h.1, Comps.growing_of_neutral cs h.2⟩
  | .of _ _ t, h => Ty.growing_of_neutral t h
  | .choice _ cs, h => Comps.growing_of_neutral cs h
theorem Comps.growing_of_neutral : ∀ cs : Comps, cs.neutral = true → cs.growing = true
  | .nil, _ => rfl
  | .cons f t cs, h => by
    simp only [Comps.neutral, Bool.and_eq_true] at h
    simp only [Comps.growing, Bool.and_eq_true]
    exact ⟨Ty.growing_of_neutral t h.1.2, Comps.growing_of_neutral cs h.2⟩
end

theorem primKind_of_legal (k : Prim) (v : Val) (h : primLegal k v = true) : primKind k v = true := by
  cases k <;> cases v <;> simp_all [primLegal, primKind]

theorem Ty.fits_fresh (t : Ty) (h : ∀ r, t ≠ .bad r) : t.fits (.fresh t) = true := by
  cases t <;> simp_all [Obj.fresh, Ty.fits]

theorem Vals.every_all (p : Val → Bool) : ∀ vs : Vals, vs.every p = vs.toList.all p
  | .nil => rfl
  | .cons v vs => by simp [Vals.every, Vals.toList, Vals.every_all p vs]

theorem Vals.ofList_toList' : ∀ vs : Vals, Vals.ofList vs.toList = vs
  | .nil => rfl
  | .cons v vs => by simp [Vals.toList, Vals.ofList, Vals.ofList_toList' vs]

theorem mapOpt_map {α β γ : Type} (f : β → Option γ) (g : α → β) : ∀ l : List α, mapOpt f (l.map g) = mapOpt (fun a => f (g a)) l
  | [] => rfl
  | a :: l => by simp only [List.map_cons, mapOpt, mapOpt_map f g l]

theorem mapOpt_id {α : Type} (f : α → Option α) : ∀ l : List α, (∀ a ∈ l, f a = some a) → mapOpt f l = some l
  | [], _ => rfl
  | a :: l, h => by simp only [mapOpt, h a (by simp), mapOpt_id f l (fun b hb => h b (by simp [hb]))]

mutual
/-- The object made from a legal value is of the type, has a value, and it is that value. -/
theorem Obj.of_spec : ∀ (t : Ty) (v : Val), t.neutral = true → t.valid v = true →
    t.fits (.of t v) = true ∧ t.isValue (.of t v) = true ∧ t.value (.of t v) = some v
  | .prim k a, v, _, h => by
    simp only [Ty.valid, Bool.and_eq_true] at h
    simp only [Obj.of, Ty.fits, Ty.isValue, Ty.value, Bool.and_eq_true, and_true]
    exact ⟨primKind_of_legal k v h.1.1, h.1.2⟩
  | .bad _, v, _, h => by simp [Ty.valid] at h
  | .seq s a cs, v, hn, h => by
    cases v <;> simp only [Ty.valid, Bool.false_eq_true, Bool.and_eq_true] at h
    simp only [Ty.neutral, Bool.and_eq_true] at hn
    obtain ⟨h1, h2, h3⟩ := Slots.of_spec cs _ hn.2 h.1
    simp only [Obj.of, Ty.fits, Ty.isValue, Ty.value, h1, h2, h3, Option.map_some, and_self]
  | .of s a t, v, hn, h => by
    cases v <;> simp only [Ty.valid, Bool.false_eq_true, Bool.and_eq_true, Vals.every_all, List.all_eq_true] at h
    rename_i vs
    have key := fun v hv => Obj.of_spec t v hn (h.1 v hv)
    simp only [Obj.of, Ty.fits, Ty.isValue, Ty.value, Objs.toList_ofList, List.all_map, List.all_eq_true, mapOpt_map]
    refine ⟨fun v hv => (key v hv).1, fun v hv => (key v hv).2.1, ?_⟩
    rw [mapOpt_id _ _ (fun v hv => (key v hv).2.2)]
    simp only [Option.map_some, Vals.ofList_toList']
  | .choice a cs, v, hn, h => by
    cases v <;> simp only [Ty.valid, Bool.false_eq_true] at h
    obtain ⟨h1, h2, h3⟩ := Obj.ofAlt_spec cs _ _ hn h
    simp only [Obj.of, Ty.fits, Ty.isValue, Ty.value, h1, h2, h3, Option.map_some, and_self]
theorem Slots.of_spec : ∀ (cs : Comps) (vs : Vals), cs.neutral = true → cs.valid vs = true →
    cs.fits (.of cs vs) = true ∧ cs.isValue (.of cs vs) = true ∧ cs.values (.of cs vs) = some vs
  | .nil, vs, _, h => by
    cases vs <;> simp only [Comps.valid, Bool.false_eq_true] at h
    simp [Comps.fits, Comps.isValue, Comps.values]
  | .cons f t cs, vs, hn, h => by
    cases vs <;> simp only [Comps.valid, Bool.false_eq_true, Bool.and_eq_true] at h
    rename_i v vs
    simp only [Comps.neutral, Bool.and_eq_true] at hn
    obtain ⟨h1, h2, h3⟩ := Slots.of_spec cs vs hn.2 h.2
    by_cases hv : v = .absent
    · subst hv
      have hm : f.mode.lax = true := by
        cases hm : f.mode with
        | req => simp only [hm] at h; exact absurd rfl (Ty.valid_ne_absent t _ h.1)
        | opt => rfl
        | dflt d =>
          simp only [hm, Bool.or_eq_true, beq_iff_eq] at h
          rcases h.1 with h | h
          · simp [Mode.lax, ← h]
          · exact absurd rfl (Ty.valid_ne_absent t _ h)
      have hi : Obj.initial f t = .fresh t := by
        simp only [Obj.initial]
        cases hm' : f.mode with
        | dflt d => simp only [hm', Mode.lax, beq_iff_eq] at hm; simp [hm]
        | _ => rfl
      have hr : f.mode.isReq = false := by cases hm' : f.mode <;> simp_all [Mode.lax, Mode.isReq]
      simp only [Slots.of, if_true, Comps.fits, Comps.isValue_cons, Comps.values, Slots.first, Slots.head, Slots.tail,
        Option.getD_none, hi, Ty.isValue_fresh, hm, hr, h1, h2, h3, Bool.not_false, Bool.and_self, Bool.true_or, and_self, if_true]
    · have hval : t.valid v = true := by
        cases hm : f.mode with
        | req => simpa only [hm] using h.1
        | opt =>
          simp only [hm, Bool.or_eq_true, beq_iff_eq] at h
          exact h.1.resolve_left hv
        | dflt d =>
          simp only [hm, Bool.or_eq_true, beq_iff_eq] at h hn
          rcases h.1 with h | h
          · subst h; exact hn.1.1.resolve_left hv
          · exact h
      obtain ⟨g1, g2, g3⟩ := Obj.of_spec t v hn.1.2 hval
      simp only [Slots.of, if_neg hv, Comps.fits, Comps.isValue_cons, Comps.values, Slots.first, Slots.head, Slots.tail,
        Option.getD_some, g1, g2, g3, h1, h2, h3, Bool.not_true, Bool.and_false, Bool.and_self, Bool.or_true, and_self,
        Bool.false_eq_true, if_false]
theorem Obj.ofAlt_spec : ∀ (cs : Comps) (i : Nat) (v : Val), cs.neutral = true → cs.validAlt i v = true →
    cs.fitsAlt i (.ofAlt cs i v) = true ∧ cs.isValueAlt i (.ofAlt cs i v) = true ∧ cs.valueAlt i (.ofAlt cs i v) = some v
  | .nil, _, _, _, h => by simp [Comps.validAlt] at h
  | .cons f t _, 0, v, hn, h => by
    simp only [Comps.neutral, Bool.and_eq_true] at hn
    exact Obj.of_spec t v hn.1.2 h
  | .cons _ _ cs, i + 1, v, hn, h => by
    simp only [Comps.neutral, Bool.and_eq_true] at hn
    exact Obj.ofAlt_spec cs i v hn.2 h
end

/-- What reading puts into a component is of its type. -/
theorem Obj.fits_initial (f : Field) (t : Ty) (cs : Comps) (hn : (Comps.cons f t cs).neutral = true) (hb : ∀ r, t ≠ .bad r) :
    t.fits (.initial f t) = true := by
  simp only [Comps.neutral, Bool.and_eq_true] at hn
  simp only [Obj.initial]
  cases hm : f.mode with
  | dflt d =>
    simp only [hm, Bool.or_eq_true, beq_iff_eq] at hn
    simp only
    by_cases hd : d = .absent
    · rw [if_pos hd]; exact Ty.fits_fresh t hb
    · rw [if_neg hd]; exact (Obj.of_spec t d hn.1.2 (hn.1.1.resolve_left hd)).1
  | _ => exact Ty.fits_fresh t hb

mutual
/-- No type in it is unknown. -/
def Ty.whole : Ty → Bool
  | .prim _ _ => true
  | .seq _ _ cs => cs.whole
  | .of _ _ t => t.whole
  | .choice _ cs => cs.whole
  | .bad _ => false
def Comps.whole : Comps → Bool
  | .nil => true
  | .cons _ t cs => t.whole && cs.whole
end

theorem Ty.ne_bad {t : Ty} (h : t.whole = true) (r : String) : t ≠ .bad r := by
  rintro rfl
  simp [Ty.whole] at h

theorem Ty.value_ne_absent (t : Ty) (o : Obj) (v : Val) (hf : t.fits o = true) (h : t.value o = some v) : v ≠ .absent := by
  rintro rfl
  cases t <;> cases o <;> simp only [Ty.fits, Ty.value, Bool.false_eq_true, Option.some.injEq, reduceCtorEq, Option.map_eq_some_iff,
    and_false, exists_false] at hf h
  · subst h
    rename_i k _
    cases k <;> simp [primKind] at hf
  · split at h <;> simp at h
  · split at h <;> simp at h

theorem sortKey_value (t : Ty) (o : Obj) (v : Val) (h : t.value o = some v) : sortKey t o = setKey t v := by
  cases t with
  | choice a cs =>
    cases o <;> simp only [Ty.value, reduceCtorEq, Option.map_eq_some_iff] at h
    obtain ⟨w, _, rfl⟩ := h
    rfl
  | _ => rfl

theorem mapOpt_bind {α β γ : Type} (f : α → Option γ) (g : α → Option β) (k : β → Option γ) :
    ∀ l : List α, (∀ a ∈ l, f a = (g a).bind k) → mapOpt f l = (mapOpt g l).bind (mapOpt k)
  | [], _ => rfl
  | a :: l, h => by
    simp only [mapOpt, h a (by simp), mapOpt_bind f g k l (fun b hb => h b (by simp [hb]))]
    cases g a with
    | none => rfl
    | some b =>
      cases mapOpt g l with
      | none => simp only [Option.bind_some, Option.bind_none]; cases k b <;> rfl
      | some bs => rfl

theorem Vals.length_ofList : ∀ l : List Val, (Vals.ofList l).length = l.length
  | [] => rfl
  | v :: l => by simp [Vals.ofList, Vals.length, Vals.length_ofList l]

theorem Vals.toList_ofList' : ∀ l : List Val, (Vals.ofList l).toList = l
  | [] => rfl
  | v :: l => by simp [Vals.ofList, Vals.toList, Vals.toList_ofList' l]

theorem mapOpt_length {α β : Type} (f : α → Option β) : ∀ (l : List α) (ys : List β), mapOpt f l = some ys → ys.length = l.length
  | [], ys, h => by simp only [mapOpt, Option.some.injEq] at h; subst h; rfl
  | a :: l, ys, h => by
    simp only [mapOpt] at h
    cases ha : f a <;> simp only [ha, reduceCtorEq] at h
    cases hl : mapOpt f l <;> simp only [hl, reduceCtorEq, Option.some.injEq] at h
    subst h
    simp [mapOpt_length f l _ hl]

theorem Comps.fits_nil : ∀ cs : Comps, cs.fits .nil = true
  | .nil => rfl
  | .cons _ t cs => by simp [Comps.fits, Slots.head, Slots.tail, Comps.fits_nil cs]

theorem Comps.values_cons {f : Field} {t : Ty} {cs : Comps} {ss : Slots} {ws : Vals} (h : (Comps.cons f t cs).values ss = some ws) :
    ∃ v vs, ws = .cons v vs ∧ (if (f.mode.lax && !t.isValue (ss.first f t)) = true then some Val.absent
      else t.value (ss.first f t)) = some v ∧ cs.values ss.tail = some vs := by
  simp only [Comps.values] at h
  split at h
  · rename_i v vs h1 h2
    simp only [Option.some.injEq] at h
    exact ⟨v, vs, h.symm, h1, h2⟩
  · simp at h

/-- Mandatory components of an object that has a value are there. -/
theorem Comps.firm_slots : ∀ (cs : Comps) (ss : Slots) (vs : Vals), cs.values ss = some vs → cs.firm ≤ (slotNames cs ss).length
  | .nil, _, _, _ => by simp [Comps.firm]
  | .cons f t cs, ss, ws, h => by
    obtain ⟨v, vs, rfl, h1, h2⟩ := Comps.values_cons h
    have ih := Comps.firm_slots cs ss.tail vs h2
    simp only [Comps.firm, slotNames]
    split
    · rename_i hm
      rw [if_pos]
      · simp only [List.length_cons]; omega
      · cases hh : ss.head with
        | some o => rfl
        | none => simp [hm, Mode.lax, Slots.first, hh, Obj.initial, Obj.fresh, Ty.value] at h1
    · rename_i hm
      rw [if_pos]
      · simp only [List.length_cons]; omega
      · cases hh : ss.head with
        | some o => rfl
        | none => simp [hm, Mode.lax, Slots.first, hh, Obj.initial, Obj.fresh, Ty.value] at h1
    · split
      · simp only [List.length_cons]; omega
      · omega

theorem Comps.firm_present : ∀ (cs : Comps) (ss : Slots) (vs : Vals), cs.fits ss = true → cs.values ss = some vs →
    cs.firm ≤ (presentNames cs vs).length
  | .nil, _, _, _, _ => by simp [Comps.firm]
  | .cons f t cs, ss, ws, hf, h => by
    have hs := Comps.firm_slots _ _ _ h
    obtain ⟨v, vs, rfl, h1, h2⟩ := Comps.values_cons h
    simp only [Comps.fits, Bool.and_eq_true] at hf
    have ih := Comps.firm_present cs ss.tail vs hf.2 h2
    have key : f.mode = .req → t.fits (ss.first f t) = true → v ≠ .absent := by
      intro hm hft
      simp only [hm, Mode.lax, Bool.false_and, Bool.false_eq_true, if_false] at h1
      exact Ty.value_ne_absent t _ v hft h1
    have hft : f.mode = .req → (∀ r, t ≠ .bad r) → t.fits (ss.first f t) = true := by
      intro hm hb
      simp only [Slots.first]
      cases hh : ss.head with
      | some o => simpa [hh] using hf.1
      | none =>
        simp only [Option.getD_none, Obj.initial, hm]
        exact Ty.fits_fresh t hb
    simp only [Comps.firm, presentNames]
    split
    · rename_i hm
      rw [if_neg (key hm (hft hm (by simp)))]
      simp only [List.length_cons]; omega
    · rename_i hm
      rw [if_neg (key hm (hft hm (by simp)))]
      simp only [List.length_cons]; omega
    · split
      · omega
      · simp only [List.length_cons]; omega

theorem presentNames_length : ∀ (cs : Comps) (vs : Vals), (presentNames cs vs).length ≤ cs.length
  | .nil, _ => by simp [presentNames]
  | .cons f t cs, .nil => by simp [presentNames]
  | .cons f t cs, .cons v vs => by
    have := presentNames_length cs vs
    simp only [presentNames, Comps.length]
    split
    · omega
    · simp only [List.length_cons]; omega

mutual
/-- `encode(x)` is the encoding of the value of `x`. -/
theorem encObj_value : ∀ (t : Ty) (ine : Bool) (o : Obj), t.neutral = true → t.whole = true → t.fits o = true →
    encObj ine t o = (t.value o).bind (enc ine t)
  | .prim k a, ine, o, _, _, hf => by
    cases o <;> simp only [Ty.fits, Bool.false_eq_true] at hf <;> rfl
  | .bad _, _, _, _, hw, _ => by simp [Ty.whole] at hw
  | .seq s a cs, ine, o, hn, hw, hf => by
    simp only [Ty.neutral, Bool.and_eq_true] at hn
    have key : ∀ ss, cs.fits ss = true → (∀ vs, cs.values ss = some vs → consistent a cs o = true) → o.slots = ss →
        encObj ine (.seq s a cs) o = ((cs.values ss).map .record).bind (enc ine (.seq s a cs)) := by
      intro ss hs hc he
      simp only [encObj]
      rw [he, encSlots_value cs ss hn.2 hw hs]
      cases hv : cs.values ss with
      | none => simp
      | some vs =>
        rw [if_pos (hc vs hv)]
        simp only [Option.bind_some, Option.map_some, enc]
        rw [if_pos (Constraint.ok_of_granted (Comps.firm_present cs ss vs hs hv) (presentNames_length cs vs) _ _ hn.1)]
        cases encComps cs vs <;> rfl
    cases o <;> simp only [Ty.fits, Bool.false_eq_true] at hf
    case record ss =>
      exact key ss hf (fun vs hv => Constraint.ok_of_granted (Comps.firm_slots cs ss vs hv) (slotNames_length cs ss) _ _ hn.1) rfl
    case blank =>
      by_cases ha : a.spec.truthy = true
      · simp [encObj, Ty.value, consistent, ha]
      · have := key .nil (Comps.fits_nil cs) (fun _ _ => by simp [consistent, ha]) rfl
        simp only [Ty.value]
        rw [if_neg ha]
        exact this
  | .of s a t, ine, o, hn, hw, hf => by
    cases o <;> simp only [Ty.fits, Bool.false_eq_true] at hf
    case blank =>
      simp only [encObj, Ty.value, Obj.elems, mapOpt]
      by_cases ha : a.spec.truthy = true
      · simp [consistentOf, ha]
      · simp only [ha, Bool.false_eq_true, if_false, Option.bind_some]
        rw [if_pos (by simp [consistentOf, ha]), enc_of_eq, if_pos (Constraint.ok_of_falsy (by simpa using ha) _ _)]
        rfl
    case list os =>
      simp only [List.all_eq_true] at hf
      simp only [encObj, Obj.elems, Ty.value,
        mapOpt_bind (encObj ine t) t.value (enc ine t) _ (fun o ho => encObj_value t ine o hn hw (hf o ho))]
      cases hv : mapOpt t.value os.toList with
      | none => simp
      | some vs =>
        have hl := mapOpt_length _ _ _ hv
        simp only [Option.bind_some, Option.map_some, enc_of_eq, Vals.toList_ofList', Vals.length_ofList, hl, consistentOf]
        cases mapOpt (enc ine t) vs <;> rfl
  | .choice a cs, ine, o, hn, hw, hf => by
    cases o <;> simp only [Ty.fits, Bool.false_eq_true] at hf
    case blank => rfl
    case chosen i o =>
      simp only [encObj, Ty.value, encObjAlt_value cs ine i o hn hw hf]
      cases cs.valueAlt i o with
      | none => rfl
      | some v =>
        simp only [Option.bind_some, Option.map_some, enc]
        cases encAlt ine cs i v <;> rfl
theorem encSlots_value : ∀ (cs : Comps) (ss : Slots), cs.neutral = true → cs.whole = true → cs.fits ss = true →
    encSlots cs ss = (cs.values ss).bind (encComps cs)
  | .nil, _, _, _, _ => rfl
  | .cons f t cs, ss, hn, hw, hf => by
    have hi := Obj.fits_initial f t cs hn
    simp only [Comps.neutral, Bool.and_eq_true] at hn
    simp only [Comps.whole, Bool.and_eq_true] at hw
    simp only [Comps.fits, Bool.and_eq_true] at hf
    have hfst : t.fits (ss.first f t) = true := by
      simp only [Slots.first]
      cases hh : ss.head with
      | none => exact hi (Ty.ne_bad hw.1)
      | some o => simpa [hh] using hf.1
    simp only [encSlots, Comps.values, encSlots_value cs ss.tail hn.2 hw.2 hf.2]
    cases hvs : cs.values ss.tail with
    | none =>
      simp only [Option.bind_none]
      split <;> simp_all
    | some vs =>
      simp only [Option.bind_some]
      by_cases hl : (f.mode.lax && !t.isValue (ss.first f t)) = true
      · simp only [if_pos hl, Option.bind_some]
        rw [encComps_absent rfl]
        simp only [Bool.and_eq_true, Bool.not_eq_true'] at hl
        cases encComps cs vs with
        | none => rfl
        | some ps =>
          simp only [Option.bind_some]
          cases hm : f.mode with
          | req => simp [hm, Mode.lax] at hl
          | opt => simp [Mode.isOpt, Mode.isReq, hl.2]
          | dflt d =>
            simp only [hm, Mode.lax, beq_iff_eq] at hl
            simp [Mode.isOpt, Mode.isReq, isDefault, hm, hl.1, hl.2]
      · simp only [if_neg hl]
        have hopt : (f.mode.isOpt && !t.isValue (ss.first f t)) = false := by
          cases hm : f.mode <;> simp_all [Mode.isOpt, Mode.lax]
        have he := encObj_value t f.mode.isOpt (ss.first f t) hn.1.2 hw.1 hfst
        have hd : ∀ v, t.value (ss.first f t) = some v → isDefault f t (ss.first f t) = decide (f.mode = .dflt v) := by
          intro v hv
          simp only [isDefault]
          cases hm : f.mode with
          | dflt d =>
            simp only [hm, Mode.lax, Bool.and_eq_true, beq_iff_eq, Bool.not_eq_true', not_and, Bool.not_eq_false] at hl
            simp only
            by_cases hda : d = .absent
            · have := Ty.value_ne_absent t _ v hfst hv
              simp only [if_pos hda, hl hda, Bool.not_true, Mode.dflt.injEq]
              subst hda
              simp [Ne.symm this]
            · rw [if_neg hda, hv]
              by_cases hdv : d = v
              · simp [hdv]
              · simp [hdv, Ne.symm hdv]
          | _ => simp
        have hd0 : t.value (ss.first f t) = none → isDefault f t (ss.first f t) = false := by
          intro hv
          simp only [isDefault]
          cases hm : f.mode with
          | dflt d =>
            simp only [hm, Mode.lax, Bool.and_eq_true, beq_iff_eq, Bool.not_eq_true', not_and, Bool.not_eq_false] at hl
            simp only
            by_cases hda : d = .absent
            · simp [if_pos hda, hl hda]
            · simp [if_neg hda, hv]
          | _ => rfl
        cases hv : t.value (ss.first f t) with
        | none =>
          simp only [Option.bind_none]
          cases encComps cs vs with
          | none => rfl
          | some ps => simp [hopt, hd0 hv, he, hv]
        | some v =>
          simp only [Option.bind_some]
          rw [encComps_present (Ty.value_ne_absent t _ v hfst hv)]
          cases encComps cs vs with
          | none => rfl
          | some ps =>
            simp only [Option.bind_some, hopt, hd v hv, he, hv, Bool.false_eq_true, if_false, decide_eq_true_eq,
              sortKey_value t _ v hv]
            split
            · rfl
            · cases enc f.mode.isOpt t v <;> rfl
theorem encObjAlt_value : ∀ (cs : Comps) (ine : Bool) (i : Nat) (o : Obj), cs.neutral = true → cs.whole = true →
    cs.fitsAlt i o = true → encObjAlt ine cs i o = (cs.valueAlt i o).bind (encAlt ine cs i)
  | .nil, _, _, _, _, _, h => by simp [Comps.fitsAlt] at h
  | .cons _ t _, ine, 0, o, hn, hw, h => by
    simp only [Comps.neutral, Bool.and_eq_true] at hn
    simp only [Comps.whole, Bool.and_eq_true] at hw
    exact encObj_value t ine o hn.1.2 hw.1 h
  | .cons _ _ cs, ine, i + 1, o, hn, hw, h => by
    simp only [Comps.neutral, Bool.and_eq_true] at hn
    simp only [Comps.whole, Bool.and_eq_true] at hw
    exact encObjAlt_value cs ine i o hn.2 hw.2 h
end

end Asn1
end Verif
