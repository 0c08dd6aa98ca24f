import Verif.Asn1.PrimLemmas
import Verif.Asn1.TlvLemmas
import Verif.Asn1.SortLemmas
import Verif.Asn1.Wf
import Verif.Spec.Asn1

/-! Auxiliary facts for the round-trip theorem. -/

namespace Verif
namespace Asn1

/-! ## `all2` -/

theorem all2_length {α β : Type} {p : α → β → Prop} : ∀ {as : List α} {bs : List β}, all2 p as bs → as.length = bs.length
  | [], [], _ => rfl
  | _ :: _, _ :: _, h => by simp [all2_length h.2]
  | [], _ :: _, h => h.elim
  | _ :: _, [], h => h.elim

theorem all2_imp {α β : Type} {p q : α → β → Prop} (hpq : ∀ a b, p a b → q a b) :
    ∀ {as : List α} {bs : List β}, all2 p as bs → all2 q as bs
  | [], [], _ => trivial
  | _ :: _, _ :: _, h => ⟨hpq _ _ h.1, all2_imp hpq h.2⟩
  | [], _ :: _, h => h.elim
  | _ :: _, [], h => h.elim

theorem all2_perm {α β : Type} {p : α → β → Prop} {as as' : List α} (hp : as.Perm as') :
    ∀ {bs : List β}, all2 p as bs → ∃ bs', bs.Perm bs' ∧ all2 p as' bs' := by
  induction hp with
  | nil => intro bs h; exact ⟨bs, List.Perm.refl _, h⟩
  | cons x _ ih =>
    intro bs h
    cases bs with
    | nil => exact h.elim
    | cons b bs =>
      obtain ⟨bs', h1, h2⟩ := ih h.2
      exact ⟨b :: bs', h1.cons b, h.1, h2⟩
  | swap x y l =>
    intro bs h
    match bs, h with
    | b :: c :: bs, h => exact ⟨c :: b :: bs, List.Perm.swap _ _ _, h.2.1, h.1, h.2.2⟩
    | [_], h => exact h.2.elim
    | [], h => exact h.elim
  | trans _ _ ih1 ih2 =>
    intro bs h
    obtain ⟨cs, h1, h2⟩ := ih1 h
    obtain ⟨ds, h3, h4⟩ := ih2 h2
    exact ⟨ds, h1.trans h3, h4⟩

theorem all2_map_left {α β γ : Type} {p : γ → β → Prop} (f : α → γ) :
    ∀ {as : List α} {bs : List β}, all2 p (as.map f) bs ↔ all2 (fun a b => p (f a) b) as bs
  | [], [] => Iff.rfl
  | _ :: _, _ :: _ => by simp only [List.map_cons, all2, all2_map_left f]
  | [], _ :: _ => Iff.rfl
  | _ :: _, [] => Iff.rfl

theorem all2_map_right {α β γ : Type} {p : α → γ → Prop} (f : β → γ) :
    ∀ {as : List α} {bs : List β}, all2 p as (bs.map f) ↔ all2 (fun a b => p a (f b)) as bs
  | [], [] => Iff.rfl
  | _ :: _, _ :: _ => by simp only [List.map_cons, all2, all2_map_right f]
  | [], _ :: _ => Iff.rfl
  | _ :: _, [] => Iff.rfl

/-- Pick witnesses for every element. -/
theorem all2_choose {α β : Type} {p : α → β → Prop} :
    ∀ (as : List α), (∀ a ∈ as, ∃ b, p a b) → ∃ bs, all2 p as bs
  | [], _ => ⟨[], trivial⟩
  | a :: as, h => by
    obtain ⟨b, hb⟩ := h a (by simp)
    obtain ⟨bs, hbs⟩ := all2_choose as (fun a' ha' => h a' (by simp [ha']))
    exact ⟨b :: bs, hb, hbs⟩

/-! ## `mapOpt` -/

theorem mapOpt_all2 {α β : Type} (f : α → Option β) :
    ∀ (as : List α) (bs : List β), mapOpt f as = some bs ↔ all2 (fun a b => f a = some b) as bs
  | [], [] => by simp [mapOpt, all2]
  | [], _ :: _ => by simp [mapOpt, all2]
  | a :: as, bs => by
    have ih := mapOpt_all2 f as
    cases hf : f a with
    | none => cases bs <;> simp [mapOpt, all2, hf]
    | some c =>
      cases hm : mapOpt f as with
      | none =>
        cases bs with
        | nil => simp [mapOpt, all2, hf, hm]
        | cons b bs =>
          simp only [mapOpt, hf, hm, all2]
          constructor
          · intro h; simp at h
          · rintro ⟨_, h⟩
            rw [← ih, hm] at h; simp at h
      | some cs =>
        cases bs with
        | nil => simp [mapOpt, all2, hf, hm]
        | cons b bs =>
          simp only [mapOpt, hf, hm, all2, Option.some.injEq, List.cons.injEq]
          rw [← ih, hm]; simp

/-! ## Value lists -/

theorem Vals.every_iff (p : Val → Bool) : ∀ vs : Vals, vs.every p = vs.toList.all p
  | .nil => rfl
  | .cons v vs => by simp [Vals.every, Vals.toList, Vals.every_iff p vs]

theorem Vals.toList_ofList : ∀ l : List Val, (Vals.ofList l).toList = l
  | [] => rfl
  | v :: l => by simp [Vals.ofList, Vals.toList, Vals.toList_ofList l]

theorem Vals.ofList_toList : ∀ vs : Vals, Vals.ofList vs.toList = vs
  | .nil => rfl
  | .cons v vs => by simp [Vals.ofList, Vals.toList, Vals.ofList_toList vs]

theorem Vals.length_toList : ∀ vs : Vals, vs.toList.length = vs.length
  | .nil => rfl
  | .cons v vs => by simp [Vals.length, Vals.toList, Vals.length_toList vs]

/-! ## Items of concatenated elements -/

theorem items_flatMap {α : Type} (f : α → Bytes) : ∀ (ps : List α) (xs : List TLV),
    all2 (fun p x => IsTLV (f p) x) (ps.filter (fun p => !(f p).isEmpty)) xs → items (ps.flatMap f) = some xs
  | [], [], _ => rfl
  | [], _ :: _, h => h.elim
  | p :: ps, xs, h => by
    simp only [List.flatMap_cons]
    by_cases he : f p = []
    · have : (p :: ps).filter (fun p => !(f p).isEmpty) = ps.filter (fun p => !(f p).isEmpty) := by
        simp [he]
      rw [this] at h
      rw [he, List.nil_append]
      exact items_flatMap f ps xs h
    · have : (p :: ps).filter (fun p => !(f p).isEmpty) = p :: ps.filter (fun p => !(f p).isEmpty) := by
        simp [he]
      rw [this] at h
      cases xs with
      | nil => exact h.elim
      | cons x xs => exact items_cons h.1 _ _ (items_flatMap f ps xs h.2)

theorem flatMap_filter {α : Type} (f : α → Bytes) (ps : List α) :
    (ps.filter (fun p => !(f p).isEmpty)).flatMap f = ps.flatMap f := by
  induction ps with
  | nil => rfl
  | cons p ps ih =>
    by_cases he : f p = []
    · simp [he, ih]
    · simp [he, ih]

theorem flatMap_isEmpty {α : Type} (f : α → Bytes) (ps : List α) :
    (ps.flatMap f).isEmpty = ps.all (fun p => (f p).isEmpty) := by
  induction ps with
  | nil => rfl
  | cons p ps ih =>
    simp only [List.flatMap_cons, List.all_cons, ← ih]
    cases f p <;> cases ps.flatMap f <;> rfl

/-! ## Matching tags -/

theorem getLast?_has (ts : TagSet) (x : TLV) :
    (match ts.getLast? with
      | some t => x.has t
      | none => false) = ((ts.getLast?.map (fun t => (t.cls, t.num))).toList.contains (x.cls, x.num)) := by
  cases ts.getLast? with
  | none => rfl
  | some t =>
    simp only [Option.map_some, Option.toList_some, List.contains_cons, List.contains_nil, Bool.or_false, TLV.has]
    rw [Bool.eq_iff_iff]
    simp

mutual
theorem Ty.matches_iff (x : TLV) : ∀ t : Ty, t.matches x = (t.anyFirst || t.firsts.contains (x.cls, x.num))
  | .prim k a => by
    have h := getLast?_has a.tags x
    cases ht : a.tags with
    | nil => simp [Ty.matches, Ty.anyFirst, Ty.firsts, ht]
    | cons t ts =>
      rw [ht] at h
      simp only [Ty.matches, Ty.anyFirst, Ty.firsts, ht, List.isEmpty_cons, Bool.and_false, Bool.false_or]
      rw [← h]
      cases hl : (t :: ts).getLast? with
      | none => simp at hl
      | some l => rfl
  | .seq _ a _ => by
    simp only [Ty.matches, Ty.anyFirst, Ty.firsts, Bool.false_or]; exact getLast?_has a.tags x
  | .of _ a _ => by
    simp only [Ty.matches, Ty.anyFirst, Ty.firsts, Bool.false_or]; exact getLast?_has a.tags x
  | .choice a cs => by
    have ih := Comps.matches_iff x cs
    cases ht : a.tags with
    | nil => simp [Ty.matches, Ty.anyFirst, Ty.firsts, ht, ih]
    | cons t ts =>
      have h := getLast?_has a.tags x
      rw [ht] at h
      simp only [Ty.matches, Ty.anyFirst, Ty.firsts, ht, List.isEmpty_cons, Bool.false_and, Bool.false_or]
      cases hl : (t :: ts).getLast? with
      | none => simp at hl
      | some l => rw [hl] at h; simpa using h
  | .bad _ => by simp [Ty.matches, Ty.anyFirst, Ty.firsts]
theorem Comps.matches_iff (x : TLV) : ∀ cs : Comps, cs.matches x = (cs.anyFirst || cs.firsts.contains (x.cls, x.num))
  | .nil => by simp [Comps.matches, Comps.anyFirst, Comps.firsts]
  | .cons _ t cs => by
    rw [Comps.matches, Ty.matches_iff x t, Comps.matches_iff x cs, Comps.anyFirst, Comps.firsts]
    rw [Bool.eq_iff_iff]
    simp only [Bool.or_eq_true, List.contains_iff_mem, List.mem_append]
    constructor
    · rintro ((h | h) | (h | h)) <;> simp [h]
    · rintro ((h | h) | (h | h)) <;> simp [h]
end

theorem Comps.matches_of_get : ∀ (cs : Comps) (i : Nat) (f : Field) (t : Ty) (x : TLV), cs.get? i = some (f, t) →
    t.matches x = true → cs.matches x = true
  | .nil, _, _, _, _, h, _ => by simp [Comps.get?] at h
  | .cons _ _ _, 0, _, _, _, h, hm => by
    simp only [Comps.get?, Option.some.injEq, Prod.mk.injEq] at h
    rw [Comps.matches, h.2, hm]; rfl
  | .cons _ _ cs, i + 1, f, t, x, h, hm => by
    rw [Comps.matches, Comps.matches_of_get cs i f t x h hm]; simp

theorem Ty.disjoint_matches (t u : Ty) (x : TLV) (h : t.disjoint u = true) (ht : t.matches x = true) :
    u.matches x = false := by
  simp only [Ty.disjoint, Bool.and_eq_true, Bool.not_eq_true', List.all_eq_true] at h
  rw [Ty.matches_iff, h.1.1, Bool.false_or] at ht
  rw [Ty.matches_iff, h.1.2, Bool.false_or]
  exact h.2 _ (by simpa using ht)

theorem Ty.disjointAll_matches (t : Ty) (x : TLV) : ∀ cs : Comps, t.disjointAll cs = true → t.matches x = true →
    cs.matches x = false
  | .nil, _, _ => rfl
  | .cons _ u cs, h, ht => by
    simp only [Ty.disjointAll, Bool.and_eq_true] at h
    simp [Comps.matches, Ty.disjoint_matches t u x h.1 ht, Ty.disjointAll_matches t x cs h.2 ht]

theorem Ty.disjointAll_matches' (t : Ty) (x : TLV) (cs : Comps) (h : t.disjointAll cs = true)
    (hc : cs.matches x = true) : t.matches x = false := by
  cases ht : t.matches x with
  | false => rfl
  | true => rw [Ty.disjointAll_matches t x cs h ht] at hc; simp at hc

theorem Ty.disjointWindow_matches (t : Ty) (x : TLV) : ∀ cs : Comps, t.disjointWindow cs = true →
    cs.windowMatches x = true → t.matches x = false
  | .nil, _, h => by simp [Comps.windowMatches] at h
  | .cons f u cs, h, hw => by
    simp only [Ty.disjointWindow, Bool.and_eq_true, Bool.or_eq_true] at h
    simp only [Comps.windowMatches, Bool.or_eq_true, Bool.and_eq_true, Bool.not_eq_true'] at hw
    rcases hw with hw | ⟨hf, hw⟩
    · cases ht : t.matches x with
      | false => rfl
      | true => rw [Ty.disjoint_matches t u x h.1 ht] at hw; simp at hw
    · rcases h.2 with h2 | h2
      · rw [hf] at h2; simp at h2
      · exact Ty.disjointWindow_matches t x cs h2 hw

/-! ## SET decoding looks only at the elements its components want -/

theorem decSet_filter (q : TLV → Bool) : ∀ (cs : Comps) (xs : List TLV),
    (∀ x, cs.matches x = true → q x = true) → decSet cs (xs.filter q) = decSet cs xs
  | .nil, _, _ => by simp [decSet]
  | .cons f t cs, xs, h => by
    have h1 : ∀ x, t.matches x = true → q x = true := fun x hx => h x (by simp [Comps.matches, hx])
    have h2 : ∀ x, cs.matches x = true → q x = true := fun x hx => h x (by simp [Comps.matches, hx])
    have e : (xs.filter q).filter t.matches = xs.filter t.matches := by
      rw [List.filter_filter]
      apply List.filter_congr
      intro x _
      cases hx : t.matches x with
      | false => simp
      | true => simp [h1 x hx]
    simp only [decSet, e, decSet_filter q cs xs h2]

theorem all2_mem_right {α β : Type} {p : α → β → Prop} :
    ∀ {as : List α} {bs : List β}, all2 p as bs → ∀ b ∈ bs, ∃ a ∈ as, p a b
  | [], [], _, b, hb => by simp at hb
  | [], _ :: _, h, _, _ => h.elim
  | _ :: _, [], h, _, _ => h.elim
  | a :: as, c :: bs, h, b, hb => by
    rcases List.mem_cons.1 hb with rfl | hb
    · exact ⟨a, by simp, h.1⟩
    · obtain ⟨a', h1, h2⟩ := all2_mem_right h.2 b hb
      exact ⟨a', by simp [h1], h2⟩

/-! ## Constraints -/

theorem Constraint.ok_of_not_truthy (c : Constraint) (s : Subject) (h : c.truthy = false) : c.ok s = true := by
  unfold Constraint.truthy at h
  split at h
  · simp [Constraint.ok, Constraints.all]
  · simp [Constraint.ok]
  · simp [Constraint.ok]
  · simp [Constraint.ok]
  · cases s <;> simp [Constraint.ok]
  · simp at h

theorem Bound.le_trans (a b c : Bound) (h1 : a.le b = true) (h2 : b.le c = true) : a.le c = true := by
  cases a <;> cases b <;> cases c <;> simp_all [Bound.le]
  omega

mutual
theorem Constraint.shrink (n m : Nat) (hm : 1 ≤ m) (hmn : m ≤ n) : ∀ c : Constraint, c.shrinkOk = true →
    c.ok (.mapping n []) = true → c.ok (.mapping m []) = true
  | .inter cs, h, hok => by
    simp only [Constraint.shrinkOk] at h
    simp only [Constraint.ok] at *
    exact Constraints.shrinkAll n m hm hmn cs h hok
  | .union .nil, _, _ => by simp [Constraint.ok]
  | .union (.cons c cs), h, hok => by
    simp only [Constraint.shrinkOk, Constraints.shrinkOk, Bool.and_eq_true] at h
    simp only [Constraint.ok, Bool.or_eq_true] at *
    rcases hok with hok | hok
    · exact Or.inl (Constraint.shrink n m hm hmn c h.1 hok)
    · exact Or.inr (Constraints.shrinkAny n m hm hmn cs h.2 hok)
  | .size lo hi, h, hok => by
    simp only [Constraint.shrinkOk] at h
    simp only [Constraint.ok, Subject.len, Bool.and_eq_true] at *
    refine ⟨Bound.le_trans _ _ _ h ?_, Bound.le_trans _ _ _ ?_ hok.2⟩
    · simp [Bound.le]; omega
    · simp [Bound.le]; omega
  | .range _ _, _, hok => by simp [Constraint.ok] at hok
  | .single [], _, _ => by simp [Constraint.ok]
  | .single (_ :: _), _, hok => by simp [Constraint.ok] at hok
  | .alphabet [], _, _ => by simp [Constraint.ok]
  | .alphabet (_ :: _), _, hok => by
    have : n ≠ 0 := by omega
    simp only [Constraint.ok] at hok
    unfold Subject.charsIn at hok
    split at hok
    · simp_all
    · simp_all
    · simp_all
    · simp at hok
  | .withComps _, _, hok => by simpa [Constraint.ok] using hok
  | .invalid, _, hok => by simp [Constraint.ok] at hok
theorem Constraints.shrinkAll (n m : Nat) (hm : 1 ≤ m) (hmn : m ≤ n) : ∀ c : Constraints, c.shrinkOk = true →
    c.all (.mapping n []) = true → c.all (.mapping m []) = true
  | .nil, _, _ => rfl
  | .cons c cs, h, hok => by
    simp only [Constraints.shrinkOk, Bool.and_eq_true] at h
    simp only [Constraints.all, Bool.and_eq_true] at *
    exact ⟨Constraint.shrink n m hm hmn c h.1 hok.1, Constraints.shrinkAll n m hm hmn cs h.2 hok.2⟩
theorem Constraints.shrinkAny (n m : Nat) (hm : 1 ≤ m) (hmn : m ≤ n) : ∀ c : Constraints, c.shrinkOk = true →
    c.any (.mapping n []) = true → c.any (.mapping m []) = true
  | .nil, _, hok => by simp [Constraints.any] at hok
  | .cons c cs, h, hok => by
    simp only [Constraints.shrinkOk, Bool.and_eq_true] at h
    simp only [Constraints.any, Bool.or_eq_true] at *
    rcases hok with hok | hok
    · exact Or.inl (Constraint.shrink n m hm hmn c h.1 hok)
    · exact Or.inr (Constraints.shrinkAny n m hm hmn cs h.2 hok)
end

/-! ## Legal values -/

theorem Ty.valid_ne_absent (t : Ty) (v : Val) (h : t.valid v = true) : v ≠ .absent := by
  rintro rfl
  cases t with
  | prim k a => cases k <;> simp [Ty.valid, primLegal] at h
  | seq => simp [Ty.valid] at h
  | of => simp [Ty.valid] at h
  | choice => simp [Ty.valid] at h
  | bad => simp [Ty.valid] at h

theorem Ty.same_ne_absent (ine : Bool) (t : Ty) (v w : Val) (h : t.same ine v w) (hv : v ≠ .absent) : w ≠ .absent := by
  rintro rfl
  cases t with
  | prim k a => simp [Ty.same] at h; exact hv h
  | seq => cases v <;> simp [Ty.same] at h
  | of => cases v <;> simp [Ty.same] at h
  | choice => cases v <;> simp [Ty.same] at h
  | bad => cases v <;> simp [Ty.same] at h

theorem setKey_same (ine : Bool) (t : Ty) (v w : Val) (h : t.same ine v w) : setKey t w = setKey t v := by
  cases t with
  | prim k a => simp [Ty.same] at h; rw [h]
  | seq => rfl
  | of => rfl
  | choice a cs =>
    cases v <;> cases w <;> simp [Ty.same] at h
    obtain ⟨h, _⟩ := h
    subst h; rfl
  | bad => rfl

mutual
/-- Only types that can vanish have values that vanish. -/
theorem Ty.canVanish_of (t : Ty) : ∀ v, t.valid v = true → t.vanish v = true → t.canVanish = true := by
  intro v hv h
  match t, v with
  | .prim _ _, _ => simp [Ty.vanish] at h
  | .bad _, _ => simp [Ty.vanish] at h
  | .seq _ _ cs, .record vs =>
    simp only [Ty.vanish] at h
    exact Comps.canVanish_of cs vs h
  | .of _ a t, .list vs =>
    simp only [Ty.vanish, Ty.valid, Ty.canVanish, Bool.and_eq_true, Bool.or_eq_true] at *
    cases vs with
    | nil => left; simpa [Vals.length] using hv.2
    | cons u us =>
      right
      simp only [Vals.every, Bool.and_eq_true] at *
      exact Ty.canVanish_of t u hv.1.1 h.1
  | .choice _ cs, .alt i v =>
    simp only [Ty.vanish, Ty.valid] at *
    exact Comps.someVanish_of cs i v hv h
  | .seq _ _ _, .absent | .seq _ _ _, .int _ | .seq _ _ _, .bits _ | .seq _ _ _, .octets _ | .seq _ _ _, .null
  | .seq _ _ _, .oid _ | .seq _ _ _, .str _ | .seq _ _ _, .list _ | .seq _ _ _, .alt _ _ => simp [Ty.vanish] at h
  | .of _ _ _, .absent | .of _ _ _, .int _ | .of _ _ _, .bits _ | .of _ _ _, .octets _ | .of _ _ _, .null
  | .of _ _ _, .oid _ | .of _ _ _, .str _ | .of _ _ _, .record _ | .of _ _ _, .alt _ _ => simp [Ty.vanish] at h
  | .choice _ _, .absent | .choice _ _, .int _ | .choice _ _, .bits _ | .choice _ _, .octets _ | .choice _ _, .null
  | .choice _ _, .oid _ | .choice _ _, .str _ | .choice _ _, .record _ | .choice _ _, .list _ => simp [Ty.vanish] at h
theorem Comps.canVanish_of (cs : Comps) : ∀ vs, cs.vanish vs = true → cs.canVanish = true := by
  intro vs h
  match cs, vs with
  | .nil, _ => rfl
  | .cons f t cs, .nil => simp [Comps.vanish] at h
  | .cons f t cs, .cons v vs =>
    simp only [Comps.vanish, Bool.and_eq_true] at h
    simp only [Comps.canVanish, Bool.and_eq_true, Bool.not_eq_true']
    refine ⟨?_, Comps.canVanish_of cs vs h.2⟩
    cases hm : f.mode <;> simp [hm, Mode.isReq] at h ⊢
theorem Comps.someVanish_of (cs : Comps) : ∀ i v, cs.validAlt i v = true → cs.vanishAlt i v = true → cs.someVanish = true := by
  intro i v hv h
  match cs, i with
  | .nil, _ => simp [Comps.vanishAlt] at h
  | .cons _ t _, 0 =>
    simp only [Comps.vanishAlt, Comps.validAlt, Comps.someVanish, Bool.or_eq_true] at *
    exact Or.inl (Ty.canVanish_of t v hv h)
  | .cons _ t cs, i + 1 =>
    simp only [Comps.vanishAlt, Comps.validAlt, Comps.someVanish, Bool.or_eq_true] at *
    exact Or.inr (Comps.someVanish_of cs i v hv h)
end

mutual
/-- On types without collections, "the same" means equal. -/
theorem Ty.rigid_same (t : Ty) : ∀ ine v w, t.rigid = true → t.valid v = true → t.same ine v w → v = w := by
  intro ine v w hr hv h
  match t with
  | .prim _ _ => simpa [Ty.same] using h
  | .bad _ => simp [Ty.valid] at hv
  | .of _ _ _ => simp [Ty.rigid] at hr
  | .seq _ a cs =>
    cases v <;> cases w <;> simp [Ty.same] at h
    simp only [Ty.rigid, Ty.valid, Bool.and_eq_true] at hr hv
    rw [Comps.rigid_same cs _ _ hr.1 hr.2 hv.1 h]
  | .choice _ cs =>
    cases v <;> cases w <;> simp [Ty.same] at h
    simp only [Ty.rigid, Ty.valid] at hr hv
    rw [h.1, Comps.rigid_sameAlt cs ine _ _ _ hr hv h.2]
theorem Comps.rigid_same (cs : Comps) : ∀ vs ws, cs.rigid = true → cs.solid = true → cs.valid vs = true →
    cs.same vs ws → vs = ws := by
  intro vs ws hr hs hv h
  match cs, vs, ws with
  | .nil, .nil, .nil => rfl
  | .nil, .nil, .cons _ _ => simp [Comps.same] at h
  | .nil, .cons _ _, _ => simp [Comps.same] at h
  | .cons _ _ _, .nil, _ => simp [Comps.same] at h
  | .cons _ _ _, .cons _ _, .nil => simp [Comps.same] at h
  | .cons f t cs, .cons v vs, .cons w ws =>
    simp only [Comps.rigid, Comps.solid, Comps.valid, Comps.same, Bool.and_eq_true, Bool.or_eq_true,
      Bool.not_eq_true'] at hr hs hv h
    rw [Comps.rigid_same cs vs ws hr.2 hs.2 hv.2 h.2]
    have : v = w := by
      cases hm : f.mode with
      | req =>
        simp only [hm] at hv h
        exact Ty.rigid_same t false v w hr.1 hv.1 h.1
      | opt =>
        simp only [hm, Bool.or_eq_true, beq_iff_eq] at hv h
        rcases h.1 with ⟨h1, h2⟩ | ⟨h1, h2⟩ | ⟨h1, h2⟩
        · rw [h1, h2]
        · rcases hv.1 with hv | hv
          · rw [hv, h2]
          · have := Ty.canVanish_of t v hv h1
            simp [hm, Mode.isOpt, this] at hs
        · rcases hv.1 with hv | hv
          · subst hv
            cases t with
            | prim => simpa [Ty.same] using h2
            | seq => simp [Ty.same] at h2
            | of => simp [Ty.same] at h2
            | choice => simp [Ty.same] at h2
            | bad => simp [Ty.same] at h2
          · exact Ty.rigid_same t true v w hr.1 hv h2
      | dflt d =>
        simp only [hm, Bool.or_eq_true, beq_iff_eq] at hv h
        rcases h.1 with ⟨h1, h2⟩ | ⟨h1, h2⟩
        · rw [h1, h2]
        · rcases hv.1 with hv | hv
          · exact absurd hv h1
          · exact Ty.rigid_same t false v w hr.1 hv h2
    rw [this]
theorem Comps.rigid_sameAlt (cs : Comps) : ∀ ine i v w, cs.rigid = true → cs.validAlt i v = true →
    cs.sameAlt ine i v w → v = w := by
  intro ine i v w hr hv h
  match cs, i with
  | .nil, _ => simp [Comps.sameAlt] at h
  | .cons _ t _, 0 =>
    simp only [Comps.rigid, Comps.validAlt, Comps.sameAlt, Bool.and_eq_true] at *
    exact Ty.rigid_same t ine v w hr.1 hv h
  | .cons _ _ cs, i + 1 =>
    simp only [Comps.rigid, Comps.validAlt, Comps.sameAlt, Bool.and_eq_true] at *
    exact Comps.rigid_sameAlt cs ine i v w hr.2 hv h
end

/-! ## Component encoding, case by case -/

theorem encComps_cons {f : Field} {t : Ty} {cs : Comps} {v : Val} {vs : Vals} {ps : List (TagSet × Bytes)}
    (h : encComps (.cons f t cs) (.cons v vs) = some ps) :
    ∃ ps', encComps cs vs = some ps' ∧
      ((f.mode ≠ .req ∧ (v = .absent ∨ f.mode = .dflt v) ∧ ps = ps') ∨
        (v ≠ .absent ∧ f.mode ≠ .dflt v ∧ ∃ b, enc f.mode.isOpt t v = some b ∧ ps = (setKey t v, b) :: ps')) := by
  simp only [encComps] at h
  cases h1 : encComps cs vs with
  | none => simp [h1] at h
  | some ps' =>
    simp only [h1] at h
    refine ⟨ps', rfl, ?_⟩
    by_cases hv : v = .absent
    · subst hv
      cases hm : f.mode with
      | req => simp [hm] at h
      | opt =>
        simp only [hm, Option.some.injEq] at h
        exact Or.inl ⟨by simp, Or.inl rfl, h.symm⟩
      | dflt d =>
        simp only [hm, Option.some.injEq] at h
        exact Or.inl ⟨by simp, Or.inl rfl, h.symm⟩
    · have h2 : (f.mode = .dflt v ∧ ps' = ps) ∨
          (f.mode ≠ .dflt v ∧ ∃ b, enc f.mode.isOpt t v = some b ∧ ps = (setKey t v, b) :: ps') := by
        cases hb : enc f.mode.isOpt t v with
        | none =>
          by_cases hm : f.mode = .dflt v
          · left; refine ⟨hm, ?_⟩; cases v <;> simp_all
          · cases hf : f.mode <;> cases v <;> simp_all
        | some b =>
          by_cases hm : f.mode = .dflt v
          · left; refine ⟨hm, ?_⟩; cases v <;> simp_all
          · right; refine ⟨hm, b, rfl, ?_⟩
            cases hf : f.mode <;> cases v <;> simp_all
      rcases h2 with ⟨hm, h2⟩ | ⟨hm, b, hb, h2⟩
      · exact Or.inl ⟨by simp [hm], Or.inr hm, h2.symm⟩
      · exact Or.inr ⟨hv, hm, b, hb, h2⟩

theorem encComps_skip {f : Field} {t : Ty} {cs : Comps} {v : Val} {vs : Vals} {ps : List (TagSet × Bytes)}
    (h : encComps cs vs = some ps) (hm : f.mode ≠ .req) (hv : v = .absent ∨ f.mode = .dflt v) :
    encComps (.cons f t cs) (.cons v vs) = some ps := by
  simp only [encComps, h]
  split
  · rename_i hf; exact absurd hf hm
  · rfl
  · rfl
  · rename_i hn1 hn2 hn3
    rcases hv with hv | hv
    · cases hf : f.mode with
      | req => exact absurd hf hm
      | opt => exact absurd hv (hn2 hf)
      | dflt d => exact absurd hv (hn3 d hf)
    · simp [hv]

theorem encComps_put {f : Field} {t : Ty} {cs : Comps} {v : Val} {vs : Vals} {ps : List (TagSet × Bytes)} {b : Bytes}
    (h : encComps cs vs = some ps) (hv : v ≠ .absent) (hm : f.mode ≠ .dflt v) (hb : enc f.mode.isOpt t v = some b) :
    encComps (.cons f t cs) (.cons v vs) = some ((setKey t v, b) :: ps) := by
  simp only [encComps, h]
  split
  · exact absurd rfl hv
  · exact absurd rfl hv
  · exact absurd rfl hv
  · simp [hm, hb]

/-! ## Padding -/

theorem maxLen_filter (l : List Bytes) : maxLen (l.filter (fun b => !b.isEmpty)) = maxLen l := by
  induction l with
  | nil => rfl
  | cons b l ih =>
    unfold maxLen at *
    cases b with
    | nil => simpa using ih
    | cons x b => simpa using congrArg (max (b.length + 1)) ih

theorem le_maxLen {l : List Bytes} {b : Bytes} (h : b ∈ l) : b.length ≤ maxLen l := by
  induction l with
  | nil => simp at h
  | cons c l ih =>
    unfold maxLen at *
    rcases List.mem_cons.1 h with rfl | h
    · simp only [List.foldr_cons]; omega
    · have := ih h
      simp only [List.foldr_cons]; omega

theorem maxLen_perm {l l' : List Bytes} (h : l.Perm l') : maxLen l = maxLen l' := by
  induction h with
  | nil => rfl
  | cons x _ ih => unfold maxLen at *; simp [ih]
  | swap x y l => unfold maxLen; simp only [List.foldr_cons]; omega
  | trans _ _ ih1 ih2 => rw [ih1, ih2]

end Asn1
end Verif
