import Verif.Asn1.Build
import Verif.Asn1.RtLemmas
import Verif.Asn1.OpenFuel

/-!
# Objects that differ in components that have been looked at
-/

namespace Verif
namespace Asn1

theorem Objs.toList_ofList (l : List Obj) : (Objs.ofList l).toList = l := by
  induction l with
  | nil => rfl
  | cons o l ih => simp [Objs.ofList, Objs.toList, ih]

theorem Obj.elems_list (l : List Obj) : (Obj.list (.ofList l)).elems = l := Objs.toList_ofList l

theorem Ty.isValue_fresh (t : Ty) : t.isValue (.fresh t) = false := by
  cases t <;> simp [Obj.fresh, Ty.isValue]

theorem Comps.isValue_cons (f : Field) (t : Ty) (cs : Comps) (ss : Slots) :
    (Comps.cons f t cs).isValue ss = ((!f.mode.isReq || t.isValue (ss.first f t)) && cs.isValue ss.tail) := by
  simp only [Comps.isValue, Slots.first]
  cases hh : ss.head with
  | some o => rfl
  | none =>
    simp only [Option.getD_none]
    cases hm : f.mode <;> simp [Mode.isReq, Obj.initial, hm, Ty.isValue_fresh]

mutual
/-- `o'` is `o` with objects in components that were `noValue`. -/
def Ty.grown : Ty → Obj → Obj → Prop
  | .seq _ _ cs, .record ss, o' => ∃ ss', o' = .record ss' ∧ cs.grown ss ss'
  | .seq _ a cs, .blank, o' => o' = .blank ∨ (a.spec.truthy = false ∧ ∃ ss', o' = .record ss' ∧ cs.grown .nil ss')
  | .of _ _ t, .list os, o' => ∃ os', o' = .list os' ∧ all2 t.grown os.toList os'.toList
  | .choice _ cs, .chosen i o, o' => ∃ q, o' = .chosen i q ∧ cs.grownAlt i o q
  | _, o, o' => o' = o
def Comps.grown : Comps → Slots → Slots → Prop
  | .nil, _, _ => True
  | .cons f t cs, ss, ss' => (ss.head.isSome → ss'.head.isSome) ∧ t.grown (ss.first f t) (ss'.first f t) ∧
      (f.mode.lax = true → t.isValue (ss'.first f t) = t.isValue (ss.first f t)) ∧ cs.grown ss.tail ss'.tail
def Comps.grownAlt : Comps → Nat → Obj → Obj → Prop
  | .cons _ t _, 0, o, o' => t.grown o o'
  | .cons _ _ cs, i + 1, o, o' => cs.grownAlt i o o'
  | .nil, _, o, o' => o' = o
end

theorem all2_refl {α : Type} {p : α → α → Prop} (h : ∀ a, p a a) : ∀ l : List α, all2 p l l
  | [] => trivial
  | a :: l => ⟨h a, all2_refl h l⟩

mutual
theorem Ty.grown_refl : ∀ (t : Ty) (o : Obj), t.grown o o
  | .prim _ _, o => by cases o <;> simp [Ty.grown]
  | .bad _, o => by cases o <;> simp [Ty.grown]
  | .seq _ _ cs, o => by
    cases o <;> simp only [Ty.grown]
    · exact .inl trivial
    · exact ⟨_, rfl, Comps.grown_refl cs _⟩
  | .of _ _ t, o => by
    cases o <;> simp only [Ty.grown]
    exact ⟨_, rfl, all2_refl (Ty.grown_refl t) _⟩
  | .choice _ cs, o => by
    cases o <;> simp only [Ty.grown]
    exact ⟨_, rfl, Comps.grownAlt_refl cs _ _⟩
theorem Comps.grown_refl : ∀ (cs : Comps) (ss : Slots), cs.grown ss ss
  | .nil, _ => trivial
  | .cons _ t cs, _ => ⟨id, Ty.grown_refl t _, fun _ => rfl, Comps.grown_refl cs _⟩
theorem Comps.grownAlt_refl : ∀ (cs : Comps) (i : Nat) (o : Obj), cs.grownAlt i o o
  | .nil, _, _ => rfl
  | .cons _ t _, 0, o => Ty.grown_refl t o
  | .cons _ _ cs, i + 1, o => Comps.grownAlt_refl cs i o
end

mutual
/-- A value stays a value. -/
theorem Ty.grown_isValue : ∀ (t : Ty) (o o' : Obj), t.grown o o' → t.isValue o = true → t.isValue o' = true
  | .prim _ _, o, o', h, hv => by
    have : o' = o := by cases o <;> simpa [Ty.grown] using h
    rwa [this]
  | .bad _, o, o', h, hv => by simp [Ty.isValue] at hv
  | .seq _ _ cs, o, o', h, hv => by
    cases o <;> simp only [Ty.isValue, Bool.false_eq_true] at hv
    simp only [Ty.grown] at h
    obtain ⟨ss', rfl, h⟩ := h
    exact Comps.grown_isValue cs _ _ h hv
  | .of _ _ t, o, o', h, hv => by
    cases o <;> simp only [Ty.isValue, Bool.false_eq_true] at hv
    simp only [Ty.grown] at h
    obtain ⟨os', rfl, h⟩ := h
    simp only [Ty.isValue, List.all_eq_true] at hv ⊢
    intro q hq
    obtain ⟨o, ho, h⟩ := all2_mem_right h q hq
    exact Ty.grown_isValue t o q h (hv o ho)
  | .choice _ cs, o, o', h, hv => by
    cases o <;> simp only [Ty.isValue, Bool.false_eq_true] at hv
    simp only [Ty.grown] at h
    obtain ⟨q, rfl, h⟩ := h
    exact Comps.grown_isValueAlt cs _ _ _ h hv
theorem Comps.grown_isValue : ∀ (cs : Comps) (ss ss' : Slots), cs.grown ss ss' → cs.isValue ss = true → cs.isValue ss' = true
  | .nil, _, _, _, _ => rfl
  | .cons f t cs, ss, ss', h, hv => by
    simp only [Comps.isValue_cons, Bool.and_eq_true, Bool.or_eq_true] at hv ⊢
    exact ⟨hv.1.imp id (Ty.grown_isValue t _ _ h.2.1), Comps.grown_isValue cs _ _ h.2.2.2 hv.2⟩
theorem Comps.grown_isValueAlt : ∀ (cs : Comps) (i : Nat) (o o' : Obj), cs.grownAlt i o o' → cs.isValueAlt i o = true →
    cs.isValueAlt i o' = true
  | .nil, _, _, _, _, hv => by simp [Comps.isValueAlt] at hv
  | .cons _ t _, 0, o, o', h, hv => Ty.grown_isValue t o o' h hv
  | .cons _ _ cs, i + 1, o, o', h, hv => Comps.grown_isValueAlt cs i o o' h hv
end

theorem mapOpt_all2_eq {α β : Type} {p : α → α → Prop} {f : α → Option β} (h : ∀ a b, p a b → f b = f a) :
    ∀ {l m : List α}, all2 p l m → mapOpt f m = mapOpt f l
  | [], [], _ => rfl
  | a :: l, b :: m, ⟨h1, h2⟩ => by simp only [mapOpt, h a b h1, mapOpt_all2_eq h h2]
  | [], _ :: _, h => h.elim
  | _ :: _, [], h => h.elim

mutual
/-- The value is the same. -/
theorem Ty.grown_value : ∀ (t : Ty) (o o' : Obj), t.grown o o' → t.value o' = t.value o
  | .prim _ _, o, o', h => by
    have : o' = o := by cases o <;> simpa [Ty.grown] using h
    rw [this]
  | .bad _, o, o', h => by
    have : o' = o := by cases o <;> simpa [Ty.grown] using h
    rw [this]
  | .seq _ a cs, o, o', h => by
    cases o <;> simp only [Ty.grown] at h
    case record ss =>
      obtain ⟨ss', rfl, h⟩ := h
      simp only [Ty.value, Comps.grown_values cs _ _ h]
    case blank =>
      rcases h with rfl | ⟨ha, ss', rfl, h⟩
      · rfl
      · simp only [Ty.value, Comps.grown_values cs _ _ h, ha, Bool.false_eq_true, if_false]
    all_goals rw [h]
  | .of _ _ t, o, o', h => by
    cases o <;> simp only [Ty.grown] at h
    case list os =>
      obtain ⟨os', rfl, h⟩ := h
      simp only [Ty.value]
      rw [mapOpt_all2_eq (Ty.grown_value t) h]
    all_goals rw [h]
  | .choice _ cs, o, o', h => by
    cases o <;> simp only [Ty.grown] at h
    case chosen i o =>
      obtain ⟨q, rfl, h⟩ := h
      simp only [Ty.value, Comps.grown_valueAlt cs _ _ _ h]
    all_goals rw [h]
theorem Comps.grown_values : ∀ (cs : Comps) (ss ss' : Slots), cs.grown ss ss' → cs.values ss' = cs.values ss
  | .nil, _, _, _ => rfl
  | .cons f t cs, ss, ss', h => by
    simp only [Comps.values, Comps.grown_values cs _ _ h.2.2.2, Ty.grown_value t _ _ h.2.1]
    cases hl : f.mode.lax with
    | false => simp
    | true => simp only [h.2.2.1 hl]
theorem Comps.grown_valueAlt : ∀ (cs : Comps) (i : Nat) (o o' : Obj), cs.grownAlt i o o' → cs.valueAlt i o' = cs.valueAlt i o
  | .nil, _, _, _, _ => rfl
  | .cons _ t _, 0, o, o', h => Ty.grown_value t o o' h
  | .cons _ _ cs, i + 1, o, o', h => Comps.grown_valueAlt cs i o o' h
end

/-! ## Constraints -/

mutual
/-- The constraint holds of a mapping with more entries, at most `m`, if it holds of one with fewer. -/
def Constraint.grows (m : Nat) : Constraint → Bool
  | .inter cs => cs.grow m
  | .union cs => cs.grow m
  | .size _ hi => (Bound.fin m).le hi
  | .single [] => true
  | .alphabet [] => true
  | .withComps cs => cs.all Prod.snd
  | _ => false
def Constraints.grow (m : Nat) : Constraints → Bool
  | .nil => true
  | .cons c cs => c.grows m && cs.grow m
end

mutual
theorem Constraint.ok_grows {m n n' : Nat} {ns ns' : List String} (hn : n ≤ n') (hm : n' ≤ m) (hs : ∀ s ∈ ns, s ∈ ns') : ∀ c : Constraint,
    c.grows m = true → c.ok (.mapping n ns) = true → c.ok (.mapping n' ns') = true
  | .inter cs, hg, h => by
    simp only [Constraint.grows, Constraint.ok] at hg h ⊢
    exact Constraints.all_grows hn hm hs cs hg h
  | .union .nil, _, _ => rfl
  | .union (.cons c cs), hg, h => by
    simp only [Constraint.grows, Constraints.grow, Constraint.ok, Bool.and_eq_true, Bool.or_eq_true] at hg h ⊢
    exact h.imp (Constraint.ok_grows hn hm hs c hg.1) (Constraints.any_grows hn hm hs cs hg.2)
  | .size lo hi, hg, h => by
    simp only [Constraint.grows] at hg
    simp only [Constraint.ok, Subject.len, Bool.and_eq_true] at h ⊢
    cases lo <;> cases hi <;> simp only [Bound.le, decide_eq_true_eq, Bool.false_eq_true, false_and, and_true] at hg h ⊢ <;> omega
  | .single [], _, _ => rfl
  | .single (_ :: _), hg, _ => by simp [Constraint.grows] at hg
  | .alphabet [], _, _ => rfl
  | .alphabet (_ :: _), hg, _ => by simp [Constraint.grows] at hg
  | .range _ _, hg, _ => by simp [Constraint.grows] at hg
  | .invalid, hg, _ => by simp [Constraint.grows] at hg
  | .withComps cs, hg, h => by
    simp only [Constraint.grows, Constraint.ok, List.all_eq_true, beq_iff_eq] at hg h ⊢
    intro p hp
    have h1 := hg p hp
    have h2 := h p hp
    rw [h1, List.contains_iff_mem] at h2
    rw [h1, List.contains_iff_mem]
    exact hs _ h2
theorem Constraints.all_grows {m n n' : Nat} {ns ns' : List String} (hn : n ≤ n') (hm : n' ≤ m) (hs : ∀ s ∈ ns, s ∈ ns') : ∀ cs : Constraints,
    cs.grow m = true → cs.all (.mapping n ns) = true → cs.all (.mapping n' ns') = true
  | .nil, _, _ => rfl
  | .cons c cs, hg, h => by
    simp only [Constraints.grow, Constraints.all, Bool.and_eq_true] at hg h ⊢
    exact ⟨Constraint.ok_grows hn hm hs c hg.1 h.1, Constraints.all_grows hn hm hs cs hg.2 h.2⟩
theorem Constraints.any_grows {m n n' : Nat} {ns ns' : List String} (hn : n ≤ n') (hm : n' ≤ m) (hs : ∀ s ∈ ns, s ∈ ns') : ∀ cs : Constraints,
    cs.grow m = true → cs.any (.mapping n ns) = true → cs.any (.mapping n' ns') = true
  | .nil, _, h => by simp [Constraints.any] at h
  | .cons c cs, hg, h => by
    simp only [Constraints.grow, Constraints.any, Bool.and_eq_true, Bool.or_eq_true] at hg h ⊢
    exact h.imp (Constraint.ok_grows hn hm hs c hg.1) (Constraints.any_grows hn hm hs cs hg.2)
end

theorem Constraint.ok_of_falsy {c : Constraint} (h : c.truthy = false) (n : Nat) (ns : List String) :
    c.ok (.mapping n ns) = true := by
  match c, h with
  | .inter .nil, _ => rfl
  | .union .nil, _ => rfl
  | .single [], _ => rfl
  | .alphabet [], _ => rfl
  | .withComps [], _ => rfl

mutual
/-- The constraints on the SEQUENCEs and SETs in it are such. -/
def Ty.growing : Ty → Bool
  | .seq _ a cs => a.spec.grows cs.length && cs.growing
  | .of _ _ t => t.growing
  | .choice _ cs => cs.growing
  | _ => true
def Comps.growing : Comps → Bool
  | .nil => true
  | .cons _ t cs => t.growing && cs.growing
end

theorem slotNames_length : ∀ (cs : Comps) (ss : Slots), (slotNames cs ss).length ≤ cs.length
  | .nil, _ => by simp [slotNames]
  | .cons f t cs, ss => by
    have := slotNames_length cs ss.tail
    simp only [slotNames, Comps.length]
    split
    · simp only [List.length_cons]; omega
    · omega

theorem slotNames_grown : ∀ (cs : Comps) (ss ss' : Slots), cs.grown ss ss' →
    (slotNames cs ss).length ≤ (slotNames cs ss').length ∧ ∀ s ∈ slotNames cs ss, s ∈ slotNames cs ss'
  | .nil, _, _, _ => by simp [slotNames]
  | .cons f t cs, ss, ss', h => by
    obtain ⟨h1, h2⟩ := slotNames_grown cs _ _ h.2.2.2
    simp only [slotNames]
    by_cases hh : ss.head.isSome = true
    · rw [if_pos hh, if_pos (h.1 hh)]
      refine ⟨by simpa using h1, fun s hs => ?_⟩
      simp only [List.mem_cons] at hs ⊢
      exact hs.imp id (h2 s)
    · rw [if_neg hh]
      split
      · exact ⟨by simp only [List.length_cons]; omega, fun s hs => List.mem_cons_of_mem _ (h2 s hs)⟩
      · exact ⟨h1, h2⟩

theorem sortKey_grown (t : Ty) (o o' : Obj) (h : t.grown o o') : sortKey t o' = sortKey t o := by
  cases t with
  | choice a cs =>
    cases o <;> simp only [Ty.grown] at h
    case chosen i o =>
      obtain ⟨q, rfl, _⟩ := h
      rfl
    all_goals rw [h]
  | _ => rfl

theorem isDefault_grown {f : Field} {t : Ty} {o o' : Obj} (h : t.grown o o')
    (hl : f.mode.lax = true → t.isValue o' = t.isValue o) : isDefault f t o' = isDefault f t o := by
  simp only [isDefault]
  cases hm : f.mode with
  | dflt d =>
    simp only [Ty.grown_value t _ _ h]
    by_cases hd : d = .absent
    · rw [if_pos hd, if_pos hd, hl (by simp [hm, Mode.lax, hd])]
    · rw [if_neg hd, if_neg hd]
  | _ => rfl

theorem mapOpt_all2_some {α β : Type} {p : α → α → Prop} {f : α → Option β} (h : ∀ a b y, p a b → f a = some y → f b = some y) :
    ∀ {l m : List α} {ys : List β}, all2 p l m → mapOpt f l = some ys → mapOpt f m = some ys
  | [], [], _, _, hy => hy
  | a :: l, b :: m, ys, ⟨h1, h2⟩, hy => by
    simp only [mapOpt] at hy ⊢
    cases ha : f a <;> simp only [ha, reduceCtorEq] at hy
    cases hl : mapOpt f l <;> simp only [hl, reduceCtorEq] at hy
    rw [h a b _ h1 ha, mapOpt_all2_some h h2 hl]
    exact hy
  | [], _ :: _, _, h, _ => h.elim
  | _ :: _, [], _, h, _ => h.elim

mutual
/-- What could be encoded is encoded to the same octets. -/
theorem encObj_grown : ∀ (t : Ty) (ine : Bool) (o o' : Obj) (b : Bytes), t.growing = true → t.grown o o' →
    encObj ine t o = some b → encObj ine t o' = some b
  | .prim _ _, ine, o, o', b, _, h, he => by
    have : o' = o := by cases o <;> simpa [Ty.grown] using h
    rwa [this]
  | .bad _, ine, o, o', b, _, h, he => by simp [encObj] at he
  | .seq s a cs, ine, o, o', b, hg, h, he => by
    simp only [Ty.growing, Bool.and_eq_true] at hg
    simp only [encObj] at he ⊢
    split at he
    rotate_left
    · simp at he
    rename_i hc
    have key : ∀ ss ss', cs.grown ss ss' → ∀ ps, encSlots cs ss = some ps → encSlots cs ss' = some ps :=
      fun ss ss' h ps => encSlots_grown cs ss ss' ps hg.2 h
    cases o <;> simp only [Ty.grown] at h
    case record ss =>
      obtain ⟨ss', rfl, h⟩ := h
      simp only [consistent] at hc
      obtain ⟨h1, h2⟩ := slotNames_grown cs ss ss' h
      rw [if_pos (by simp only [consistent]; exact Constraint.ok_grows h1 (slotNames_length cs ss') h2 _ hg.1 hc)]
      simp only [Obj.slots] at he ⊢
      cases hp : encSlots cs ss <;> simp only [hp, reduceCtorEq] at he
      rw [key _ _ h _ hp]
      exact he
    case blank =>
      rcases h with rfl | ⟨ha, ss', rfl, h⟩
      · rw [if_pos hc]; exact he
      · rw [if_pos (by simp only [consistent]; exact Constraint.ok_of_falsy ha _ _)]
        simp only [Obj.slots] at he ⊢
        cases hp : encSlots cs .nil <;> simp only [hp, reduceCtorEq] at he
        rw [key _ _ h _ hp]
        exact he
    all_goals simp [consistent] at hc
  | .of s a t, ine, o, o', b, hg, h, he => by
    simp only [Ty.growing] at hg
    cases o <;> simp only [Ty.grown] at h
    case list os =>
      obtain ⟨os', rfl, h⟩ := h
      have hc' : consistentOf a (.list os') = consistentOf a (.list os) := by simp only [consistentOf, all2_length h]
      simp only [encObj, Obj.elems] at he ⊢
      rw [hc']
      split at he
      · rename_i hc
        rw [if_pos hc]
        cases hp : mapOpt (encObj ine t) os.toList <;> simp only [hp, reduceCtorEq] at he
        rw [mapOpt_all2_some (fun o o' y h he => encObj_grown t ine o o' y hg h he) h hp]
        exact he
      · simp at he
    all_goals rw [h]; exact he
  | .choice a cs, ine, o, o', b, hg, h, he => by
    simp only [Ty.growing] at hg
    cases o <;> simp only [Ty.grown] at h
    case chosen i o =>
      obtain ⟨q, rfl, h⟩ := h
      simp only [encObj] at he ⊢
      cases hp : encObjAlt ine cs i o <;> simp only [hp, reduceCtorEq] at he
      rw [encObjAlt_grown cs ine i o q _ hg h hp]
      exact he
    all_goals rw [h]; exact he
theorem encSlots_grown : ∀ (cs : Comps) (ss ss' : Slots) (ps : List (TagSet × Bytes)), cs.growing = true → cs.grown ss ss' →
    encSlots cs ss = some ps → encSlots cs ss' = some ps
  | .nil, _, _, _, _, _, h => h
  | .cons f t cs, ss, ss', ps, hg, h, he => by
    simp only [Comps.growing, Bool.and_eq_true] at hg
    simp only [encSlots] at he ⊢
    cases hp : encSlots cs ss.tail <;> simp only [hp, reduceCtorEq] at he
    rename_i qs
    rw [encSlots_grown cs _ _ qs hg.2 h.2.2.2 hp]
    simp only
    have hi : (f.mode.isOpt && !t.isValue (ss'.first f t)) = (f.mode.isOpt && !t.isValue (ss.first f t)) := by
      cases hm : f.mode <;> simp only [Mode.isOpt, Bool.false_and, Bool.true_and]
      rw [h.2.2.1 (by simp [hm, Mode.lax])]
    rw [hi, isDefault_grown h.2.1 h.2.2.1, sortKey_grown t _ _ h.2.1]
    split at he
    · rename_i h1
      rw [if_pos h1]; exact he
    · rename_i h1
      rw [if_neg h1]
      split at he
      · rename_i h2
        rw [if_pos h2]; exact he
      · rename_i h2
        rw [if_neg h2]
        cases hb : encObj f.mode.isOpt t (ss.first f t) <;> simp only [hb, reduceCtorEq] at he
        rw [encObj_grown t _ _ _ _ hg.1 h.2.1 hb]
        exact he
theorem encObjAlt_grown : ∀ (cs : Comps) (ine : Bool) (i : Nat) (o o' : Obj) (b : Bytes), cs.growing = true → cs.grownAlt i o o' →
    encObjAlt ine cs i o = some b → encObjAlt ine cs i o' = some b
  | .nil, _, _, _, _, _, _, _, he => by simp [encObjAlt] at he
  | .cons _ t _, ine, 0, o, o', b, hg, h, he => by
    simp only [Comps.growing, Bool.and_eq_true] at hg
    exact encObj_grown t ine o o' b hg.1 h he
  | .cons _ _ cs, ine, i + 1, o, o', b, hg, h, he => by
    simp only [Comps.growing, Bool.and_eq_true] at hg
    exact encObjAlt_grown cs ine i o o' b hg.2 h he
end

/-! ## Encoding and reading make objects grow -/

theorem Slots.first_put (f : Field) (t : Ty) (o : Obj) (ss : Slots) : (Slots.put o ss).first f t = o := rfl

theorem all2_map_self {α : Type} {p : α → α → Prop} {f : α → α} : ∀ {l : List α}, (∀ a ∈ l, p a (f a)) → all2 p l (l.map f)
  | [], _ => trivial
  | a :: l, h => ⟨h a (by simp), all2_map_self (fun b hb => h b (by simp [hb]))⟩

theorem mapOpt_some_mem {α β : Type} {f : α → Option β} : ∀ {l : List α} {ys : List β}, mapOpt f l = some ys →
    ∀ a ∈ l, ∃ y, f a = some y
  | [], _, _, a, ha => by simp at ha
  | b :: l, ys, h, a, ha => by
    simp only [mapOpt] at h
    cases hb : f b <;> simp only [hb, reduceCtorEq] at h
    cases hl : mapOpt f l <;> simp only [hl, reduceCtorEq] at h
    rcases List.mem_cons.1 ha with rfl | ha
    · exact ⟨_, hb⟩
    · exact mapOpt_some_mem hl a ha

mutual
theorem touch_grown : ∀ (t : Ty) (ine : Bool) (o : Obj) (b : Bytes), encObj ine t o = some b → t.grown o (touch t o)
  | .prim _ _, _, o, _, _ => by cases o <;> simp [touch, Ty.grown]
  | .bad _, _, o, _, _ => by cases o <;> simp [touch, Ty.grown]
  | .seq s a cs, ine, o, b, he => by
    simp only [encObj] at he
    split at he
    rotate_left
    · simp at he
    rename_i hc
    cases hp : encSlots cs o.slots <;> simp only [hp, reduceCtorEq] at he
    cases o <;> simp only [touch, Ty.grown]
    case record ss => exact ⟨_, rfl, touchSlots_grown cs ss _ hp⟩
    case blank =>
      simp only [consistent, Bool.not_eq_true'] at hc
      exact .inr ⟨hc, _, rfl, touchSlots_grown cs .nil _ hp⟩
  | .of s a t, ine, o, b, he => by
    cases o <;> simp only [touch, Ty.grown]
    simp only [encObj, Obj.elems] at he
    split at he
    · rename_i os _
      cases hp : mapOpt (encObj ine t) os.toList <;> simp only [hp, reduceCtorEq] at he
      refine ⟨_, rfl, ?_⟩
      rw [Objs.toList_ofList]
      refine all2_map_self fun q hq => ?_
      obtain ⟨y, hy⟩ := mapOpt_some_mem hp q hq
      exact touch_grown t ine q y hy
    · simp at he
  | .choice a cs, ine, o, b, he => by
    cases o <;> simp only [touch, Ty.grown]
    simp only [encObj] at he
    rename_i i o
    cases hp : encObjAlt ine cs i o <;> simp only [hp, reduceCtorEq] at he
    exact ⟨_, rfl, touchAlt_grown cs ine i o _ hp⟩
theorem touchSlots_grown : ∀ (cs : Comps) (ss : Slots) (ps : List (TagSet × Bytes)), encSlots cs ss = some ps →
    cs.grown ss (touchSlots cs ss)
  | .nil, _, _, _ => trivial
  | .cons f t cs, ss, ps, he => by
    simp only [encSlots] at he
    cases hp : encSlots cs ss.tail <;> simp only [hp, reduceCtorEq] at he
    refine ⟨fun _ => rfl, ?_, ?_, touchSlots_grown cs ss.tail _ hp⟩
    all_goals
      simp only [touchSlots, Slots.first_put]
      by_cases h1 : ((f.mode.isOpt && !t.isValue (ss.first f t)) || isDefault f t (ss.first f t)) = true
      · rw [if_pos h1]
        first | exact Ty.grown_refl t _ | exact fun _ => rfl
      · rw [if_neg h1]
        simp only [Bool.or_eq_true, not_or, Bool.not_eq_true] at h1
        simp only [h1.1, h1.2, Bool.false_eq_true, if_false] at he
        cases hb : encObj f.mode.isOpt t (ss.first f t) <;> simp only [hb, reduceCtorEq] at he
        have hg := touch_grown t _ _ _ hb
        first
        | exact hg
        | intro hl
          have hv : t.isValue (ss.first f t) = true := by
            cases hm : f.mode with
            | req => simp [hm, Mode.lax] at hl
            | opt => simpa [hm, Mode.isOpt] using h1.1
            | dflt d =>
              simp only [hm, Mode.lax, beq_iff_eq] at hl
              simpa [isDefault, hm, hl] using h1.2
          rw [hv]
          exact Ty.grown_isValue t _ _ hg hv
theorem touchAlt_grown : ∀ (cs : Comps) (ine : Bool) (i : Nat) (o : Obj) (b : Bytes), encObjAlt ine cs i o = some b →
    cs.grownAlt i o (touchAlt cs i o)
  | .nil, _, _, _, _, he => by simp [encObjAlt] at he
  | .cons _ t _, ine, 0, o, b, he => touch_grown t ine o b he
  | .cons _ _ cs, ine, i + 1, o, b, he => touchAlt_grown cs ine i o b he
end

/-- The path goes through objects that are there, or that can be put there without anything becoming a value: no alternative
but the chosen one, no element beyond the end, no object of all-optional components without a value. -/
def safe : Ty → Obj → List Nat → Bool
  | _, _, [] => true
  | .seq _ a cs, o, i :: p =>
    (match o with
      | .record _ => true
      | .blank => !a.spec.truthy && !cs.isValue .nil
      | _ => false) && (match cs.get? i with
      | some (f, t) => safe t ((o.slots.get? i).getD (.initial f t)) p
      | none => false)
  | .of _ _ t, .list os, i :: p => match os.toList[i]? with
    | some c => safe t c p
    | none => false
  | .choice _ cs, .chosen j c, i :: p => j == i && (match cs.get? i with
    | some (_, t) => safe t c p
    | none => false)
  | _, _, _ => false

/-- The object found at the end of the path, with its type. -/
def look : Ty → Obj → List Nat → Option (Ty × Obj)
  | t, o, [] => some (t, o)
  | .seq _ _ cs, o, i :: p => match cs.get? i with
    | some (f, t) => look t ((o.slots.get? i).getD (.initial f t)) p
    | none => none
  | .of _ _ t, o, i :: p => match o.elems[i]? with
    | some c => look t c p
    | none => if i = o.elems.length then look t (.fresh t) p else none
  | .choice _ cs, o, i :: p => match cs.get? i with
    | some (f, t) => look t (o.under f t i) p
    | none => none
  | _, _, _ :: _ => none

theorem Slots.head_cons (o : Option Obj) (ss : Slots) : (Slots.cons o ss).head = o := by cases o <;> rfl

theorem Slots.tail_cons (o : Option Obj) (ss : Slots) : (Slots.cons o ss).tail = ss := by cases o <;> rfl

/-- One component is replaced. -/
theorem Comps.set_grown : ∀ (cs : Comps) (ss : Slots) (i : Nat) (f : Field) (t : Ty) (c : Obj), cs.get? i = some (f, t) →
    t.grown ((ss.get? i).getD (.initial f t)) c → t.isValue c = t.isValue ((ss.get? i).getD (.initial f t)) →
    cs.grown ss (ss.set c i) ∧ cs.isValue (ss.set c i) = cs.isValue ss
  | .nil, _, _, _, _, _, h, _, _ => by simp [Comps.get?] at h
  | .cons f' t' cs, ss, 0, f, t, c, h, hg, hv => by
    simp only [Comps.get?, Option.some.injEq, Prod.mk.injEq] at h
    obtain ⟨rfl, rfl⟩ := h
    refine ⟨⟨fun _ => rfl, hg, fun _ => hv, Comps.grown_refl cs _⟩, ?_⟩
    simp only [Comps.isValue_cons, Slots.set, Slots.first_put]
    rw [hv]; rfl
  | .cons f' t' cs, ss, i + 1, f, t, c, h, hg, hv => by
    simp only [Comps.get?] at h
    obtain ⟨h1, h2⟩ := Comps.set_grown cs ss.tail i f t c h hg hv
    have hf : ((ss.set c (i + 1)).first f' t') = ss.first f' t' := by
      simp only [Slots.first, Slots.set, Slots.head_cons]
    have ht : (ss.set c (i + 1)).tail = ss.tail.set c i := by simp only [Slots.set, Slots.tail_cons]
    refine ⟨⟨?_, ?_, ?_, ?_⟩, ?_⟩
    · simp only [Slots.set, Slots.head_cons]; exact id
    · rw [hf]; exact Ty.grown_refl _ _
    · intro _; rw [hf]
    · rw [ht]; exact h1
    · rw [Comps.isValue_cons, Comps.isValue_cons, hf, ht, h2]

theorem Comps.grownAlt_get : ∀ (cs : Comps) (i : Nat) (f : Field) (t : Ty) (o o' : Obj), cs.get? i = some (f, t) →
    t.grown o o' → cs.grownAlt i o o'
  | .nil, _, _, _, _, _, h, _ => by simp [Comps.get?] at h
  | .cons _ _ _, 0, f, t, o, o', h, hg => by
    simp only [Comps.get?, Option.some.injEq, Prod.mk.injEq] at h
    obtain ⟨rfl, rfl⟩ := h
    exact hg
  | .cons _ _ cs, i + 1, f, t, o, o', h, hg => Comps.grownAlt_get cs i f t o o' h hg

theorem Comps.isValueAlt_get : ∀ (cs : Comps) (i : Nat) (f : Field) (t : Ty) (o : Obj), cs.get? i = some (f, t) →
    cs.isValueAlt i o = t.isValue o
  | .nil, _, _, _, _, h => by simp [Comps.get?] at h
  | .cons _ _ _, 0, f, t, o, h => by
    simp only [Comps.get?, Option.some.injEq, Prod.mk.injEq] at h
    obtain ⟨rfl, rfl⟩ := h
    rfl
  | .cons _ _ cs, i + 1, f, t, o, h => Comps.isValueAlt_get cs i f t o h

theorem all2_set {α : Type} {p : α → α → Prop} (hr : ∀ a, p a a) : ∀ (l : List α) (i : Nat) (a b : α), l[i]? = some a → p a b →
    all2 p l (l.set i b)
  | [], _, _, _, h, _ => by simp at h
  | x :: l, 0, a, b, h, hp => by
    simp only [List.getElem?_cons_zero, Option.some.injEq] at h
    subst h
    exact ⟨hp, all2_refl hr l⟩
  | x :: l, i + 1, a, b, h, hp => ⟨hr x, all2_set hr l i a b (by simpa using h) hp⟩

theorem all_set {α : Type} {p : α → Bool} : ∀ (l : List α) (i : Nat) (a b : α), l[i]? = some a → p b = p a →
    (l.set i b).all p = l.all p
  | [], _, _, _, h, _ => by simp at h
  | x :: l, 0, a, b, h, hp => by
    simp only [List.getElem?_cons_zero, Option.some.injEq] at h
    subst h
    simp [hp]
  | x :: l, i + 1, a, b, h, hp => by
    simp only [List.set_cons_succ, List.all_cons, all_set l i a b (by simpa using h) hp]

/-- Changing an object in a way that makes it grow, without it becoming a value, makes the whole grow. -/
theorem atPath_grown (g : Ty → Obj → Option Obj) : ∀ (p : List Nat) (t : Ty) (o : Obj), safe t o p = true →
    (∀ u c, look t o p = some (u, c) → ∃ c', g u c = some c' ∧ u.grown c c' ∧ u.isValue c' = u.isValue c) →
    ∃ o', atPath g t o p = some o' ∧ t.grown o o' ∧ t.isValue o' = t.isValue o
  | [], t, o, _, hg => by simpa [atPath] using hg t o (by simp [look])
  | i :: p, .prim _ _, o, h, _ => by simp [safe] at h
  | i :: p, .bad _, o, h, _ => by simp [safe] at h
  | i :: p, .seq s a cs, o, h, hg => by
    simp only [safe, Bool.and_eq_true] at h
    obtain ⟨hb, h⟩ := h
    cases hc : cs.get? i with
    | none => simp [hc] at h
    | some ft =>
      obtain ⟨f, t⟩ := ft
      simp only [hc] at h
      simp only [look, hc] at hg
      obtain ⟨c, h1, h2, h3⟩ := atPath_grown g p t _ h hg
      obtain ⟨h4, h5⟩ := Comps.set_grown cs o.slots i f t c hc h2 h3
      simp only [atPath, hc, h1, Option.map_some, Option.some.injEq, exists_eq_left']
      cases o <;> simp only [Bool.false_eq_true, Bool.and_eq_true, Bool.not_eq_true'] at hb
      case record ss => exact ⟨⟨_, rfl, h4⟩, h5⟩
      case blank => exact ⟨.inr ⟨hb.1, _, rfl, h4⟩, by simp only [Ty.isValue]; rw [h5]; exact hb.2⟩
  | i :: p, .of s a t, o, h, hg => by
    cases o <;> simp only [safe, Bool.false_eq_true] at h
    rename_i os
    cases hc : os.toList[i]? with
    | none => simp [hc] at h
    | some q =>
      simp only [hc] at h
      simp only [look, Obj.elems, hc] at hg
      obtain ⟨c, h1, h2, h3⟩ := atPath_grown g p t _ h hg
      simp only [atPath, Obj.elems, hc, h1, Option.map_some, Option.some.injEq, exists_eq_left', Ty.grown, Ty.isValue,
        Objs.toList_ofList]
      exact ⟨⟨_, rfl, by rw [Objs.toList_ofList]; exact all2_set (Ty.grown_refl t) _ _ _ _ hc h2⟩, all_set _ _ _ _ hc h3⟩
  | i :: p, .choice a cs, o, h, hg => by
    cases o <;> simp only [safe, Bool.false_eq_true, Bool.and_eq_true, beq_iff_eq] at h
    rename_i j q
    obtain ⟨rfl, h⟩ := h
    cases hc : cs.get? j with
    | none => simp [hc] at h
    | some ft =>
      obtain ⟨f, t⟩ := ft
      simp only [hc] at h
      simp only [look, hc, Obj.under, if_true] at hg
      obtain ⟨c, h1, h2, h3⟩ := atPath_grown g p t _ h hg
      simp only [atPath, hc, Obj.under, if_true, h1, Option.map_some, Option.some.injEq, exists_eq_left', Ty.grown, Ty.isValue]
      exact ⟨⟨_, rfl, Comps.grownAlt_get cs j f t _ _ hc h2⟩, by
        rw [Comps.isValueAlt_get cs j f t _ hc, Comps.isValueAlt_get cs j f t _ hc, h3]⟩

end Asn1
end Verif
