import Verif.Asn1.TypedBack

/-!
# Objects that are assembled with typed contents: the same object comes back
-/

namespace Verif
namespace Asn1

/-! ## Empty objects -/

theorem hollowAlt_get {w : OVal} : ∀ {cs : Comps} {i : Nat} {f : Field} {t : Ty}, cs.get? i = some (f, t) →
    cs.hollowAlt i w = t.hollow w
  | .nil, _, _, _, h => by simp [Comps.get?] at h
  | .cons _ _ _, 0, _, _, h => by simp [Comps.get?] at h; simp [Comps.hollowAlt, h.2]
  | .cons _ _ cs, i + 1, _, _, h => by simp only [Comps.get?] at h; simp [Comps.hollowAlt, hollowAlt_get h]

theorem vanishAlt_get {v : Val} : ∀ {cs : Comps} {i : Nat} {f : Field} {t : Ty}, cs.get? i = some (f, t) →
    cs.vanishAlt i v = t.vanish v
  | .nil, _, _, _, h => by simp [Comps.get?] at h
  | .cons _ _ _, 0, _, _, h => by simp [Comps.get?] at h; simp [Comps.vanishAlt, h.2]
  | .cons _ _ cs, i + 1, _, _, h => by simp only [Comps.get?] at h; simp [Comps.vanishAlt, vanishAlt_get h]

theorem isAbsent_iff {w : OVal} : w.isAbsent = true ↔ w = .leaf .absent := by
  cases w with
  | leaf v => cases v <;> simp [OVal.isAbsent]
  | _ => simp [OVal.isAbsent]

/-- An object is not its default unless it was not set. -/
theorem Typed.leaf {D : Registry} {ok : Content → Prop} {ine : Bool} {t : Ty} {v d : Val} (h : Typed D ok ine t v (.leaf d)) :
    v = d := by
  cases h; rfl

mutual
theorem Typed.hollow {D : Registry} {ok : Content → Prop} : ∀ {ine : Bool} {t : Ty} {v : Val} {w : OVal}, Typed D ok ine t v w →
    t.hollow w = t.vanish v
  | _, _, _, _, .prim _ _ _ _ => by simp [Ty.hollow, Ty.vanish]
  | _, _, _, _, .seq _ _ _ _ _ _ hc => by simp only [Ty.hollow, Ty.vanish]; exact hc.hollow
  | _, _, _, _, .of _ _ _ _ _ _ he => by simp only [Ty.hollow, Ty.vanish]; exact he.hollow
  | _, _, _, _, .choice _ _ _ _ _ _ _ _ hi hw => by
    simp only [Ty.hollow, Ty.vanish, hollowAlt_get hi, vanishAlt_get hi]
    exact hw.hollow
theorem TypedE.hollow {D : Registry} {ok : Content → Prop} : ∀ {ine : Bool} {t : Ty} {vs : Vals} {ws : OVals},
    TypedE D ok ine t vs ws → ws.every t.hollow = vs.every t.vanish
  | _, _, _, _, .nil _ _ => rfl
  | _, _, _, _, .cons _ _ _ _ _ _ h1 h2 => by simp only [OVals.every, Vals.every, h1.hollow, h2.hollow]
theorem TypedC.hollow {D : Registry} {ok : Content → Prop} : ∀ {ds : Comps} {us : Vals} {cs : Comps} {vs : Vals} {ws : OVals},
    TypedC D ok ds us cs vs ws → cs.hollow ws = cs.vanish vs
  | _, _, _, _, _, .nil _ _ => rfl
  | _, _, _, _, _, .cons ds us f t cs v vs w ws h1 h2 => by
    simp only [Comps.hollow, Comps.vanish, h2.hollow]
    congr 1
    have ha : decide (w = .leaf .absent) = (v == .absent) := by
      rw [Bool.eq_iff_iff]
      simp only [decide_eq_true_eq, beq_iff_eq, ← isAbsent_iff]
      exact h1.absentIff
    cases hm : f.mode with
    | req => rfl
    | opt =>
      simp only [ha]
      by_cases hv : v = .absent
      · simp [hv]
      · simp only [h1.hollow hv (by simp [hm])]
    | dflt d =>
      simp only [ha]
      congr 1
      rw [Bool.eq_iff_iff]
      simp only [decide_eq_true_eq, beq_iff_eq]
      constructor
      · rintro rfl
        exact h1.leaf
      · rintro rfl
        cases h1 with
        | absent => rfl
        | dflt => rfl
        | plain => rename_i h _; exact absurd hm h
        | unknown => rename_i h _; exact absurd hm h
        | known => rename_i h _; exact absurd hm h
theorem TypedF.hollow {D : Registry} {ok : Content → Prop} : ∀ {ds : Comps} {us : Vals} {f : Field} {t : Ty} {v : Val} {w : OVal},
    TypedF D ok ds us f t v w → v ≠ .absent → f.mode ≠ .dflt v → t.hollow w = t.vanish v
  | _, _, _, _, _, _, .absent _ _ _ _ _, h, _ => absurd rfl h
  | _, _, _, _, _, _, .dflt _ _ _ _ _ _ hm _ _, _, h => absurd hm h
  | _, _, _, _, _, _, .plain _ _ _ _ _ _ _ _ hw, _, _ => hw.hollow
  | _, _, _, _, _, _, .unknown _ _ _ _ _ _ _ _ _ _ _ _ hw, _, _ => hw.hollow
  | _, _, _, _, _, _, .known _ _ _ _ _ _ _ _ _ _ _ _ _ hw, _, _ => hw.hollow
theorem TypedF.leaf {D : Registry} {ok : Content → Prop} : ∀ {ds : Comps} {us : Vals} {f : Field} {t : Ty} {v d : Val},
    TypedF D ok ds us f t v (.leaf d) → v = d
  | _, _, _, _, _, _, .absent _ _ _ _ _ => rfl
  | _, _, _, _, _, _, .dflt _ _ _ _ _ _ _ _ _ => rfl
  | _, _, _, _, _, _, .plain _ _ _ _ _ _ _ _ hw => hw.leaf
  | _, _, _, _, _, _, .unknown _ _ _ _ _ _ _ _ _ _ _ _ hw => hw.leaf
theorem TypedV.hollow {D : Registry} {ok : Content → Prop} : ∀ {ine : Bool} {m : Ident} {k : Val} {t u : Ty} {v : Val} {w : OVal},
    TypedV D ok ine m k t u v w → t.hollow w = t.vanish v
  | _, _, _, _, _, _, _, .one _ _ _ _ _ _ _ _ _ _ _ _ _ _ => by simp [Ty.hollow, Ty.vanish]
  | _, _, _, _, _, _, _, .many _ _ _ _ _ t _ _ _ hl => by simp only [Ty.hollow, Ty.vanish]; exact hl.hollow
theorem TypedL.hollow {D : Registry} {ok : Content → Prop} : ∀ {ine : Bool} {m : Ident} {k : Val} {t u : Ty} {vs : Vals} {ws : OVals},
    TypedL D ok ine m k t u vs ws → ws.every t.hollow = vs.every t.vanish
  | _, _, _, _, _, _, _, .nil _ _ _ _ _ => rfl
  | _, _, _, _, _, _, _, .cons _ _ _ t _ b _ _ _ _ _ _ _ _ _ hl => by
    simp only [OVals.every, Vals.every, hl.hollow]
    congr 1
    cases t <;> simp [Ty.hollow, Ty.vanish]
end

/-! ## Collections -/

theorem all2_align {α β : Type} {p : α → β → Prop} {l us : List α} (h : us.Perm l) : ∀ {m : List β}, all2 p l m →
    ∃ ys, List.Perm ys m ∧ all2 p us ys := by
  induction h with
  | nil => intro m hm; exact ⟨m, List.Perm.refl _, hm⟩
  | cons a _ ih =>
    intro m hm
    cases m with
    | nil => simp [all2] at hm
    | cons b bs =>
      simp only [all2] at hm
      obtain ⟨ys, h1, h2⟩ := ih hm.2
      exact ⟨b :: ys, h1.cons b, hm.1, h2⟩
  | swap a b l =>
    intro m hm
    match m, hm with
    | x :: y :: bs, hm =>
      simp only [all2] at hm
      exact ⟨y :: x :: bs, List.Perm.swap x y bs, hm.2.1, hm.1, hm.2.2⟩
  | trans _ _ ih1 ih2 =>
    intro m hm
    obtain ⟨ys, h1, h2⟩ := ih2 hm
    obtain ⟨zs, h3, h4⟩ := ih1 h2
    exact ⟨zs, h3.trans h1, h4⟩

theorem list_alike {ine : Bool} {t : Ty} {Q : Val → OVal → Prop} : ∀ {us : List Val} {ys : List OVal} {l : List Val} {m : List OVal},
    all2 (fun v w => t.hollow w = t.vanish v ∧ ∀ v' w', t.same ine v v' → Q v' w' → Alike ine t w w') us ys →
    all2 (t.same ine) (us.filter (fun u => !(ine && t.vanish u))) l → all2 Q l m → AlikeE ine t ys m
  | [], [], [], [], _, _, _ => .nil ine t
  | [], [], [], _ :: _, _, _, h => by simp [all2] at h
  | [], [], _ :: _, _, _, h, _ => by simp [all2] at h
  | [], _ :: _, _, _, h, _, _ => by simp [all2] at h
  | _ :: _, [], _, _, h, _, _ => by simp [all2] at h
  | u :: us, y :: ys, l, m, h, hs, hq => by
    simp only [all2] at h
    by_cases hv : (ine && t.vanish u) = true
    · simp only [List.filter_cons, hv, Bool.not_true, Bool.false_eq_true, if_false] at hs
      simp only [Bool.and_eq_true] at hv
      obtain ⟨rfl, hv⟩ := hv
      exact .drop t y ys m (h.1.1.trans hv) (list_alike h.2 hs hq)
    · simp only [Bool.not_eq_true] at hv
      simp only [List.filter_cons, hv, Bool.not_false, if_true] at hs
      cases l with
      | nil => simp [all2] at hs
      | cons v' l =>
        cases m with
        | nil => simp [all2] at hq
        | cons w' m =>
          simp only [all2] at hs hq
          exact .cons ine t y w' ys m (h.1.2 v' w' hs.1 hq.1) (list_alike h.2 hs.2 hq.2)

theorem of_alike {ine s : Bool} {a : Attrs} {t : Ty} {Q : Val → OVal → Prop} {vs vs' : Vals} {ws ws' : OVals}
    (h : all2 (fun v w => t.hollow w = t.vanish v ∧ ∀ v' w', t.same ine v v' → Q v' w' → Alike ine t w w') vs.toList ws.toList)
    (hs : (Ty.of s a t).same ine (.list vs) (.list vs')) (hq : all2 Q vs'.toList ws'.toList) :
    Alike ine (.of s a t) (.list ws) (.list ws') := by
  simp only [Ty.same] at hs
  obtain ⟨us, h1, h2⟩ := hs
  cases s with
  | false =>
    simp only [Bool.false_eq_true, if_false] at h1
    subst h1
    exact .seqOf ine a t ws ws' (list_alike h h2 hq)
  | true =>
    simp only [if_true] at h1
    obtain ⟨ys, h3, h4⟩ := all2_align h1 h
    exact .setOf ine a t ws ws' ys h3 (list_alike h4 h2 hq)

theorem OpensE.all2 {S : Side} {ine : Bool} {t : Ty} {g : Ty → Bytes → Option OVal} : ∀ {vs : Vals} {ws : OVals},
    OpensE S ine t vs ws → (∀ p ∈ vs.toList.zip ws.toList, t.calm g p.1 p.2) →
    Asn1.all2 (fun v w => Opens S ine t v w ∧ t.calm g v w) vs.toList ws.toList
  | _, _, .nil _ _, _ => trivial
  | _, _, .cons _ _ v w vs ws h1 h2, hc => by
    simp only [Vals.toList, OVals.toList, List.zip_cons_cons, List.mem_cons, forall_eq_or_imp] at hc
    exact ⟨⟨h1, hc.1⟩, h2.all2 hc.2⟩

theorem OpensL.all2 {S : Side} {ine : Bool} {t u : Ty} {g : Ty → Bytes → Option OVal} : ∀ {vs : Vals} {ws : OVals},
    OpensL S ine t u vs ws → (∀ p ∈ vs.toList.zip ws.toList, t.calm g p.1 p.2) →
    Asn1.all2 (fun v w => OpensV S ine t u v w ∧ t.calm g v w) vs.toList ws.toList
  | _, _, .nil _ _ _, _ => trivial
  | _, _, .cons _ _ _ b r v w vs ws h1 h2 h3 h4, hc => by
    simp only [Vals.toList, OVals.toList, List.zip_cons_cons, List.mem_cons, forall_eq_or_imp] at hc
    exact ⟨⟨.one _ _ _ b r v w h1 h2 h3, hc.1⟩, h4.all2 hc.2⟩

/-! ## One component -/

/-- What `same` says of one component. -/
def compSame (f : Field) (t : Ty) (v w : Val) : Prop :=
  match f.mode with
  | .req => t.same false v w
  | .opt => (v = .absent ∧ w = .absent) ∨ (t.vanish v = true ∧ w = .absent) ∨ (t.vanish v = false ∧ t.same true v w)
  | .dflt d => (v = d ∧ w = d) ∨ (v ≠ d ∧ t.same false v w)

/-- What `valid` says of one component. -/
def compValid (f : Field) (t : Ty) (v : Val) : Prop :=
  match f.mode with
  | .req => t.valid v = true
  | .opt => v = .absent ∨ t.valid v = true
  | .dflt d => v = d ∨ t.valid v = true

def compStable (f : Field) (t : Ty) : Prop :=
  match f.mode with
  | .dflt d => t.rigid = true ∨ d = .absent
  | _ => True

theorem same_absent {t : Ty} {ine : Bool} {v : Val} (h : t.same ine v .absent) : v = .absent := by
  cases t with
  | prim => simpa [Ty.same] using h
  | _ => cases v <;> simp [Ty.same] at h

theorem absent_vanish (t : Ty) : t.vanish .absent = false := by
  cases t <;> simp [Ty.vanish]

/-- A component that was set is not its default when it comes back. -/
theorem comp_cases {f : Field} {t : Ty} {v w : Val} (hv : compValid f t v) (hs : compStable f t) (hd : f.mode ≠ .dflt v)
    (h : compSame f t v w) : (w = .absent ∧ f.mode = .opt ∧ (v = .absent ∨ t.vanish v = true)) ∨
      (t.same f.mode.isOpt v w ∧ f.mode ≠ .dflt w ∧ (v = .absent ∨ t.valid v = true)) := by
  unfold compSame at h
  unfold compValid at hv
  unfold compStable at hs
  cases hm : f.mode with
  | req => simp only [hm] at h hv; exact .inr ⟨h, by simp, .inr hv⟩
  | opt =>
    simp only [hm] at h hv
    rcases h with h | h | h
    · exact .inl ⟨h.2, rfl, .inl h.1⟩
    · exact .inl ⟨h.2, rfl, .inr h.1⟩
    · exact .inr ⟨h.2, by simp, hv⟩
  | dflt d =>
    simp only [hm] at h hv hs hd
    have hne : v ≠ d := fun h => hd (by rw [h])
    have hv := hv.resolve_left hne
    have h := (h.resolve_left (fun h => hne h.1)).2
    refine .inr ⟨h, ?_, .inr hv⟩
    intro hw
    simp only [Mode.dflt.injEq] at hw
    rcases hs with hs | hs
    · exact hne ((Ty.rigid_same t _ v w hs hv h).trans hw.symm)
    · rw [← hw, hs] at h
      rw [hs] at hne
      exact hne (same_absent h)

theorem OpensF.closed_of {S : Side} : ∀ {ds : Comps} {us : Vals} {f : Field} {t : Ty} {v : Val} {w : OVal},
    OpensF S ds us f t v w → f.openType = none → f.mode ≠ .dflt v → v ≠ .absent → Opens S f.mode.isOpt t v w
  | _, _, _, _, _, _, .absent _ _ _ _ _, _, _, h => absurd rfl h
  | _, _, _, _, _, _, .dflt _ _ _ _ _ hm _, _, h, _ => absurd hm h
  | _, _, _, _, _, _, .plain _ _ _ _ _ _ _ _ hw, _, _, _ => hw
  | _, _, _, _, _, _, .unknown _ _ _ _ _ _ _ _ ho _ _ _ _, h, _, _ => by rw [ho] at h; simp at h
  | _, _, _, _, _, _, .known _ _ _ _ _ _ _ _ _ ho _ _ _ _, h, _, _ => by rw [ho] at h; simp at h

theorem OpensF.unknown_of {S : Side} {o : OpenTy} {g : Val} : ∀ {ds : Comps} {us : Vals} {f : Field} {t : Ty} {v : Val} {w : OVal},
    OpensF S ds us f t v w → f.openType = some o → fieldVal o.governor ds us = some g → S.registry o.map g = none →
    f.mode ≠ .dflt v → v ≠ .absent → Opens S f.mode.isOpt t v w
  | _, _, _, _, _, _, .absent _ _ _ _ _, _, _, _, _, h => absurd rfl h
  | _, _, _, _, _, _, .dflt _ _ _ _ _ hm _, _, _, _, h, _ => absurd hm h
  | _, _, _, _, _, _, .plain _ _ _ _ _ _ ho _ _, h, _, _, _, _ => by rw [ho] at h; simp at h
  | _, _, _, _, _, _, .unknown _ _ _ _ _ _ _ _ _ _ _ _ hw, _, _, _, _, _ => hw
  | _, _, _, _, _, _, .known _ _ _ _ _ _ _ _ _ ho hg hr _ _, h1, h2, h3, _, _ => by
    rw [ho] at h1
    simp only [Option.some.injEq] at h1
    subst h1
    rw [hg] at h2
    simp only [Option.some.injEq] at h2
    subst h2
    rw [hr] at h3
    simp at h3

theorem OpensF.known_of {S : Side} {o : OpenTy} {g : Val} {u : Ty} : ∀ {ds : Comps} {us : Vals} {f : Field} {t : Ty} {v : Val} {w : OVal},
    OpensF S ds us f t v w → f.openType = some o → fieldVal o.governor ds us = some g → S.registry o.map g = some u →
    f.mode ≠ .dflt v → v ≠ .absent → OpensV S f.mode.isOpt t u v w
  | _, _, _, _, _, _, .absent _ _ _ _ _, _, _, _, _, h => absurd rfl h
  | _, _, _, _, _, _, .dflt _ _ _ _ _ hm _, _, _, _, h, _ => absurd hm h
  | _, _, _, _, _, _, .plain _ _ _ _ _ _ ho _ _, h, _, _, _, _ => by rw [ho] at h; simp at h
  | _, _, _, _, _, _, .unknown _ _ _ _ _ _ _ _ ho hg hr _ _, h1, h2, h3, _, _ => by
    rw [ho] at h1
    simp only [Option.some.injEq] at h1
    subst h1
    rw [hg] at h2
    simp only [Option.some.injEq] at h2
    subst h2
    rw [hr] at h3
    simp at h3
  | _, _, _, _, _, _, .known _ _ _ _ _ _ _ _ _ ho hg hr _ hw, h1, h2, h3, _, _ => by
    rw [ho] at h1
    simp only [Option.some.injEq] at h1
    subst h1
    rw [hg] at h2
    simp only [Option.some.injEq] at h2
    subst h2
    rw [hr] at h3
    simp only [Option.some.injEq] at h3
    subst h3
    exact hw

/-! ## The same object -/

/-- The decoder for what open type fields hold. -/
abbrev inner (D : Registry) (n : Nat) : Ty → Bytes → Option OVal := fun u c => (odecode D n u c).map Prod.fst

/-- What is in a field is read again. -/
theorem content_back {D : Registry} {n : Nat} {ine : Bool} {u : Ty} {b r : Bytes} {v x : Val} {z : OVal} (hw : u.wf = true)
    (hst : u.stable = true) (hg : u.each Ty.governed = true) (hv : u.valid v = true) (he : enc ine u v = some b)
    (hn : ine = true → u.vanish v = false) (hx : decode u b = some (x, r)) (hz : inner D n u b = some z) :
    u.same ine v x ∧ ∃ m, u.calm (inner D m) x z := by
  rcases rt u ine v b hw hv he with ⟨_, h1, h2⟩ | ⟨_, y, v', h1, _, h3, h4, h5⟩
  · rw [hn h1] at h2; simp at h2
  have hr := h1.read
  simp only [decode, hr, h3, Option.some.injEq, Prod.mk.injEq] at hx
  obtain ⟨rfl, _⟩ := hx
  refine ⟨h4, ?_⟩
  cases n with
  | zero => simp [inner, odecode] at hz
  | succ n =>
    refine ⟨n, ?_⟩
    simp only [inner, odecode, hr] at hz
    split at hz <;> simp only [Option.map_none, reduceCtorEq, Option.map_some, Option.some.injEq] at hz
    rename_i w hw'
    rw [← hz]
    exact odecT_calm u y v' w hg h3 hw' (h5 hst).2.2

theorem stable_get : ∀ {cs : Comps} {i : Nat} {f : Field} {t : Ty}, cs.get? i = some (f, t) → cs.stable = true → t.stable = true
  | .nil, _, _, _, h, _ => by simp [Comps.get?] at h
  | .cons _ _ _, 0, _, _, h, hs => by
    simp [Comps.get?] at h
    simp only [Comps.stable, Bool.and_eq_true] at hs
    rw [← h.2]; exact hs.1.1
  | .cons _ _ cs, i + 1, _, _, h, hs => by
    simp only [Comps.get?] at h
    simp only [Comps.stable, Bool.and_eq_true] at hs
    exact stable_get h hs.2

theorem sameAlt_get {ine : Bool} {v w : Val} : ∀ {cs : Comps} {i : Nat} {f : Field} {t : Ty}, cs.get? i = some (f, t) →
    cs.sameAlt ine i v w → t.same ine v w
  | .nil, _, _, _, h, _ => by simp [Comps.get?] at h
  | .cons _ _ _, 0, _, _, h, hs => by simp [Comps.get?] at h; simpa [Comps.sameAlt, h.2] using hs
  | .cons _ _ cs, i + 1, _, _, h, hs => by
    simp only [Comps.get?] at h
    simp only [Comps.sameAlt] at hs
    exact sameAlt_get h hs

mutual
/-- What is read is the object that was written. -/
theorem Typed.alike {D : Registry} {ok : Content → Prop} {good : Ty → Prop} (G : Closed D ok good) :
    ∀ {ine : Bool} {t : Ty} {v : Val} {w : OVal}, Typed D ok ine t v w → t.each Ty.governed = true → t.stable = true →
    (v = .absent ∨ t.valid v = true) → (∀ c ∈ t.fields D v, good c.type ∧ c.type.wf = true) → ∀ n v' w', t.same ine v v' →
    Opens (plainSide D) ine t v' w' → t.calm (inner D n) v' w' → Alike ine t w w'
  | _, _, _, _, .prim ine k a v, _, _, _, _, n, v', w', hs, ho, _ => by
    simp only [Ty.same] at hs
    subst hs
    cases ho
    exact .leaf ine k a v
  | _, _, _, _, .seq ine s a cs vs ws hc, hg, hst, hv, hf, n, v', w', hs, ho, hk => by
    simp only [Ty.each, Bool.and_eq_true] at hg
    have hb : Comps.governedBy cs cs = true := by
      cases s with
      | false => exact hg.1
      | true =>
        have := hg.1
        simp only [Ty.governed, Bool.and_eq_true] at this
        exact governedBy_noOpen cs cs this.1
    simp only [reduceCtorEq, false_or, Ty.valid, Bool.and_eq_true] at hv
    simp only [Ty.stable] at hst
    simp only [Ty.fields] at hf
    cases v' <;> try (simp [Ty.same] at hs; done)
    cases ho
    rename_i vs' ws' _ ho
    simp only [Ty.same] at hs
    simp only [Ty.calm] at hk
    exact .seq ine s a cs ws ws' (hc.alike G hb hg.2 hst hv.1 hf n vs' vs' ws' (fun _ hn => fieldVal_same hs hn) hs ho hk)
  | _, _, _, _, .of ine s a t vs ws he, hg, hst, hv, hf, n, v', w', hs, ho, hk => by
    simp only [Ty.each, Bool.and_eq_true] at hg
    simp only [reduceCtorEq, false_or, Ty.valid, Bool.and_eq_true, Vals.every_iff, List.all_eq_true] at hv
    simp only [Ty.stable, Bool.and_eq_true] at hst
    simp only [Ty.fields, List.mem_flatMap] at hf
    cases v' <;> try (simp [Ty.same] at hs; done)
    cases ho
    rename_i vs' ws' ho
    simp only [Ty.calm] at hk
    exact of_alike (he.alike G hg.2 hst.1 (fun v h => hv.1 v h) (fun v hv c hc => hf c ⟨v, hv, hc⟩) n) hs (ho.all2 hk)
  | _, _, _, _, .choice ine a cs i f t v w hi hw, hg, hst, hv, hf, n, v', w', hs, ho, hk => by
    simp only [Ty.each, Bool.and_eq_true] at hg
    simp only [reduceCtorEq, false_or, Ty.valid] at hv
    simp only [Ty.stable] at hst
    simp only [Ty.fields, fieldsAlt_get hi] at hf
    cases v' <;> try (simp [Ty.same] at hs; done)
    simp only [Ty.same] at hs
    obtain ⟨rfl, hs⟩ := hs
    cases ho
    rename_i w'' f' t' hi' ho
    rw [hi] at hi'
    simp only [Option.some.injEq, Prod.mk.injEq] at hi'
    obtain ⟨rfl, rfl⟩ := hi'
    simp only [Ty.calm, calmAlt_get hi] at hk
    exact .choice ine a cs i f t w _ hi (hw.alike G (each_get hi hg.2) (stable_get hi hst) (.inr (validAlt_get hi hv)) hf n _ _
      (sameAlt_get hi hs) ho hk)
termination_by structural _ _ _ _ h => h
theorem TypedE.alike {D : Registry} {ok : Content → Prop} {good : Ty → Prop} (G : Closed D ok good) :
    ∀ {ine : Bool} {t : Ty} {vs : Vals} {ws : OVals}, TypedE D ok ine t vs ws → t.each Ty.governed = true → t.stable = true →
    (∀ v ∈ vs.toList, t.valid v = true) → (∀ v ∈ vs.toList, ∀ c ∈ t.fields D v, good c.type ∧ c.type.wf = true) → ∀ n,
    all2 (fun v w => t.hollow w = t.vanish v ∧ ∀ v' w', t.same ine v v' →
      Opens (plainSide D) ine t v' w' ∧ t.calm (inner D n) v' w' → Alike ine t w w') vs.toList ws.toList
  | _, _, _, _, .nil _ _, _, _, _, _, _ => trivial
  | _, _, _, _, .cons ine t v w vs ws h1 h2, hg, hst, hv, hf, n => by
    simp only [Vals.toList, List.mem_cons, forall_eq_or_imp] at hf hv
    exact ⟨⟨h1.hollow, fun v' w' hs ho => h1.alike G hg hst (.inr hv.1) hf.1 n v' w' hs ho.1 ho.2⟩, h2.alike G hg hst hv.2 hf.2 n⟩
termination_by structural _ _ _ _ h => h
theorem TypedC.alike {D : Registry} {ok : Content → Prop} {good : Ty → Prop} (G : Closed D ok good) :
    ∀ {ds : Comps} {us : Vals} {cs : Comps} {vs : Vals} {ws : OVals}, TypedC D ok ds us cs vs ws →
    Comps.governedBy ds cs = true → cs.each Ty.governed = true → cs.stable = true → cs.valid vs = true →
    (∀ c ∈ Comps.fields D ds us cs vs, good c.type ∧ c.type.wf = true) → ∀ n us' vs' ws',
    (∀ n, selects (ds.find n) = true → fieldVal n ds us' = fieldVal n ds us) → cs.same vs vs' →
    OpensC (plainSide D) ds us' cs vs' ws' → cs.calm (inner D n) vs' ws' → AlikeC cs ws ws'
  | _, _, _, _, _, .nil _ _, _, _, _, _, _, n, us', vs', ws', _, _, ho, _ => by
    cases ho
    exact .nil
  | _, _, _, _, _, .cons ds us f t cs v vs w ws h1 h2, hb, hg, hst, hv, hf, n, us', vs', ws', hn, hs, ho, hk => by
    simp only [Comps.governedBy, Bool.and_eq_true] at hb
    simp only [Comps.each, Bool.and_eq_true] at hg
    simp only [Comps.fields, List.mem_append] at hf
    simp only [Comps.stable, Bool.and_eq_true] at hst
    simp only [Comps.valid, Bool.and_eq_true] at hv
    cases ho
    rename_i v' vs' w' ws' ho1 ho2
    simp only [Comps.same] at hs
    simp only [Comps.calm] at hk
    have hv1 : compValid f t v := by
      have := hv.1
      unfold compValid
      cases hm : f.mode <;> simp only [hm, Bool.or_eq_true, beq_iff_eq] at this ⊢ <;> exact this
    have hst1 : compStable f t := by
      have := hst.1.2
      unfold compStable
      cases hm : f.mode <;> simp only [hm, Bool.or_eq_true, beq_iff_eq] at this ⊢
      exact this
    exact .cons f t cs w w' ws ws'
      (h1.alike G hb.1 hg.1 hst.1.1 hst1 hv1 (fun c hc => hf c (.inl (.inl hc))) (fun c hc => hf c (.inl (.inr hc))) n us' v' w' hn
        hs.1 ho1 hk.1 hk.2.1)
      (h2.alike G hb.2 hg.2 hst.2 hv.2 (fun c hc => hf c (.inr hc)) n us' vs' ws' hn hs.2 ho2 hk.2.2)
termination_by structural _ _ _ _ _ h => h
theorem TypedF.alike {D : Registry} {ok : Content → Prop} {good : Ty → Prop} (G : Closed D ok good) :
    ∀ {ds : Comps} {us : Vals} {f : Field} {t : Ty} {v : Val} {w : OVal}, TypedF D ok ds us f t v w →
    (match f.openType with
     | none => true
     | some o => selects (ds.find o.governor) && carriesAll t && (f.mode.isReq || f.mode.isOpt)) = true →
    t.each Ty.governed = true → t.stable = true → compStable f t → compValid f t v →
    (∀ c ∈ t.fields D v, good c.type ∧ c.type.wf = true) →
    (∀ c ∈ openFields D ds us f t v, good c.type ∧ c.type.wf = true) → ∀ n us' v' w',
    (∀ n, selects (ds.find n) = true → fieldVal n ds us' = fieldVal n ds us) → compSame f t v v' →
    OpensF (plainSide D) ds us' f t v' w' → (f.mode = .dflt v' → w' = .leaf v') → t.calm (inner D n) v' w' → AlikeF f t w w'
  | _, _, _, _, _, _, .absent ds us f t hm, _, _, _, _, _, _, _, n, us', v', w', _, hs, ho, _, _ => by
    have hv' : v' = .absent := by
      unfold compSame at hs
      rcases hm with hm | hm <;> simp only [hm, true_and, absent_vanish, Bool.false_eq_true, false_and, false_or] at hs
      · rcases hs with hs | hs
        · exact hs
        · cases t with
          | prim => simpa [Ty.same] using hs.symm
          | _ => simp [Ty.same] at hs
      · exact hs.resolve_right (fun h => h.1 rfl)
    rw [isAbsent_iff.1 (ho.absentIff.2 hv')]
    exact .absent f t (by rcases hm with hm | hm <;> simp [hm])
  | _, _, _, _, _, _, .dflt ds us f t v w hm _ _, _, _, _, _, _, _, _, n, us', v', w', _, hs, _, hd, _ => by
    unfold compSame at hs
    simp only [hm, true_and, ne_eq, not_true_eq_false, false_and, or_false] at hs
    subst hs
    rw [hd hm]
    exact .dflt f t v' hm
  | _, _, _, _, _, _, .plain ds us f t v w ho hm hw, _, hg, hst, hcs, hv, hf, _, n, us', v', w', _, hs, ho', _, hk => by
    rcases comp_cases hv hcs hm hs with ⟨rfl, h2, h3⟩ | ⟨h1, h2, h3⟩
    · rw [isAbsent_iff.1 (ho'.absentIff.2 rfl)]
      rcases h3 with rfl | h3
      · rw [isAbsent_iff.1 (hw.absent.2 rfl)]
        exact .absent f t (by simp [h2])
      · exact .empty f t w h2 (hw.hollow.trans h3)
    · by_cases ha : v' = .absent
      · subst ha
        have := same_absent h1
        subst this
        cases hw
        rw [isAbsent_iff.1 (ho'.absentIff.2 rfl)]
        exact .set f _ _ _ (.leaf _ _ _ _)
      · exact .set f t w w' (hw.alike G hg hst h3 hf n v' w' h1 (ho'.closed_of ho h2 ha) hk)
  | _, _, _, _, _, _, .unknown ds us f t v w o g ho hr1 hr hm hw, hb, hg, hst, hcs, hv, hf, _, n, us', v', w', hn, hs, ho', _, hk => by
    simp only [ho, Bool.and_eq_true] at hb
    rcases comp_cases hv hcs hm hs with ⟨rfl, h2, h3⟩ | ⟨h1, h2, h3⟩
    · rw [isAbsent_iff.1 (ho'.absentIff.2 rfl)]
      rcases h3 with rfl | h3
      · rw [isAbsent_iff.1 (hw.absent.2 rfl)]
        exact .absent f t (by simp [h2])
      · exact .empty f t w h2 (hw.hollow.trans h3)
    · by_cases ha : v' = .absent
      · subst ha
        have := same_absent h1
        subst this
        cases hw
        rw [isAbsent_iff.1 (ho'.absentIff.2 rfl)]
        exact .set f _ _ _ (.leaf _ _ _ _)
      · exact .set f t w w' (hw.alike G hg hst h3 hf n v' w' h1
          (ho'.unknown_of ho ((hn _ hb.1.1).trans hr1) hr h2 ha) hk)
  | _, _, _, _, _, _, .known ds us f t v w o g u ho hr1 hr hm hw, hb, _, _, hcs, hv, _, hf, n, us', v', w', hn, hs, ho', _, hk => by
    simp only [ho, Bool.and_eq_true] at hb
    simp only [openFields, ho, hr1, hr, List.mem_map] at hf
    have hva : v ≠ .absent := by cases hw <;> simp
    rcases comp_cases hv hcs hm hs with ⟨rfl, h2, h3⟩ | ⟨h1, h2, _⟩
    · rw [isAbsent_iff.1 (ho'.absentIff.2 rfl)]
      exact .empty f t w h2 (hw.hollow.trans (h3.resolve_left hva))
    · have ha : v' ≠ .absent := by
        rintro rfl
        exact hva (same_absent h1)
      exact .set f t w w' (hw.alike G hb.1.2 (fun b hb => hf _ ⟨b, hb, rfl⟩) n v' w' h1
        (ho'.known_of ho ((hn _ hb.1.1).trans hr1) hr h2 ha) hk)
termination_by structural _ _ _ _ _ _ h => h
theorem TypedV.alike {D : Registry} {ok : Content → Prop} {good : Ty → Prop} (G : Closed D ok good) :
    ∀ {ine : Bool} {m : Ident} {k : Val} {t u : Ty} {v : Val} {w : OVal}, TypedV D ok ine m k t u v w → carriesAll t = true →
    (∀ b ∈ octetsIn v, good u ∧ u.wf = true) → ∀ n v' w', t.same ine v v' → OpensV (plainSide D) ine t u v' w' →
    t.calm (inner D n) v' w' → Alike ine t w w'
  | _, _, _, _, _, _, _, .one ine m k p a u b v w hv he hnv _ hw, _, hf, n, v', w', hs, ho, hk => by
    simp only [octetsIn, List.mem_singleton, forall_eq] at hf
    simp only [Ty.same] at hs
    subst hs
    cases ho
    rename_i r x z ho hd _
    simp only [Ty.calm, reduceCtorEq, false_or] at hk
    obtain ⟨u', b', o, e1, e2, e3⟩ := hk
    simp only [Val.octets.injEq, OVal.opened.injEq] at e1 e2
    obtain ⟨rfl, rfl⟩ := e2
    subst e1
    have hg := G.governed u hf.1
    obtain ⟨h1, l, h2⟩ := content_back hf.2 (G.stable u hf.1) hg hv he hnv hd e3
    exact .opened ine p a u w z (hw.alike G hg (G.stable u hf.1) (.inr hv)
      (fun c hc => G.types u v c hf.1 hc (hw.oks c hc)) l x z h1 ho h2)
  | _, _, _, _, _, _, _, .many ine m k s a t u vs ws hl, hc, hf, n, v', w', hs, ho, hk => by
    cases ho with
    | one => simp [Ty.same] at hs
    | many =>
      rename_i vs' ws' ho
      simp only [Ty.calm] at hk
      exact of_alike (hl.alike G hc (fun b hb => hf b (List.mem_filterMap.2 ⟨_, hb, rfl⟩)) n) hs (ho.all2 hk)
termination_by structural _ _ _ _ _ _ _ h => h
theorem TypedL.alike {D : Registry} {ok : Content → Prop} {good : Ty → Prop} (G : Closed D ok good) :
    ∀ {ine : Bool} {m : Ident} {k : Val} {t u : Ty} {vs : Vals} {ws : OVals}, TypedL D ok ine m k t u vs ws → carries t = true →
    (∀ b, .octets b ∈ vs.toList → good u ∧ u.wf = true) → ∀ n,
    all2 (fun v w => t.hollow w = t.vanish v ∧ ∀ v' w', t.same ine v v' →
      OpensV (plainSide D) ine t u v' w' ∧ t.calm (inner D n) v' w' → Alike ine t w w') vs.toList ws.toList
  | _, _, _, _, _, _, _, .nil _ _ _ _ _, _, _, _ => trivial
  | _, _, _, _, _, _, _, .cons ine m k t u b v w vs ws hv he hnv _ hw hl, hc, hf, n => by
    simp only [Vals.toList, List.mem_cons] at hf
    have hu := hf b (.inl rfl)
    have hrest := hl.alike G hc (fun b hb => hf b (.inr hb)) n
    obtain ⟨p, a, rfl, _⟩ := carries_prim hc
    refine ⟨⟨by simp [Ty.hollow, Ty.vanish], ?_⟩, hrest⟩
    rintro v' w' hs ⟨ho, hk⟩
    simp only [Ty.same] at hs
    subst hs
    cases ho
    rename_i r x z ho hd _
    simp only [Ty.calm, reduceCtorEq, false_or] at hk
    obtain ⟨u', b', o, e1, e2, e3⟩ := hk
    simp only [Val.octets.injEq, OVal.opened.injEq] at e1 e2
    obtain ⟨rfl, rfl⟩ := e2
    subst e1
    have hg := G.governed u hu.1
    obtain ⟨h1, l, h2⟩ := content_back hu.2 (G.stable u hu.1) hg hv he hnv hd e3
    exact .opened ine p a u w z (hw.alike G hg (G.stable u hu.1) (.inr hv)
      (fun c hc => G.types u v c hu.1 hc (hw.oks c hc)) l x z h1 ho h2)
termination_by structural _ _ _ _ _ _ _ h => h
end

/-- What was assembled is written and read again, whatever follows it. -/
theorem typed_roundtrip {D : Registry} {ok : Content → Prop} {good : Ty → Prop} (hD : D.openOk) (G : Closed D ok good)
    {t : Ty} {v : Val} {w : OVal} {b : Bytes} (h : Typed D ok false t v w) (ht : good t) (hw : t.wf = true)
    (hv : t.valid v = true) (he : enc false t v = some b) :
    oenc false t w = some b ∧ ∀ rest, ∃ w', odecode D ((b ++ rest).length + 1) t (b ++ rest) = some (w', rest) ∧
      Alike false t w w' := by
  have hg := G.governed t ht
  have hty : ∀ c ∈ t.fields D v, good c.type ∧ c.type.wf = true := fun c hc => G.types t v c ht hc (h.oks c hc)
  refine ⟨(h.encEq G hg (fun c hc => ⟨G.fits t v c ht hc (h.oks c hc), (hty c hc).1⟩)).trans he, fun rest => ?_⟩
  rcases rt t false v b hw hv he with ⟨_, h1, _⟩ | ⟨_, x, v', h1, _, h3, h4, h5⟩
  · simp at h1
  have hr := h1.2 rest
  have hd : decode t (b ++ rest) = some (v', rest) := by simp only [decode, hr, h3]
  obtain ⟨w', hw'⟩ := odecode_complete hD (G.openOk t ht) hg (b ++ rest) rest v' hd (by
    intro p hp
    rw [Ty.contents_fields, List.mem_map] at hp
    obtain ⟨c, hc, rfl⟩ := hp
    obtain ⟨_, w, _, hw⟩ := h.backs hD G hty c (Ty.fields_same t hg h4 c hc)
    simp [hw])
  obtain ⟨v'', k1, k2⟩ := odecode_sound D _ t (b ++ rest) w' rest hw'
  rw [hd] at k1
  simp only [Option.some.injEq, Prod.mk.injEq, and_true] at k1
  subst k1
  refine ⟨w', hw', ?_⟩
  simp only [odecode, hr] at hw'
  split at hw' <;> simp only [reduceCtorEq, Option.some.injEq, Prod.mk.injEq, and_true] at hw'
  rename_i w'' hw''
  subst hw'
  exact h.alike G hg (G.stable t ht) (.inr hv) hty _ v' w'' h4 (k2 false)
    (odecT_calm t x v' w'' hg h3 hw'' (h5 (G.stable t ht)).2.2)

/-! ## Exactly the same object -/

theorem settledE_iff {ine : Bool} {t : Ty} : ∀ (ws : OVals), ws.settledE ine t = true ↔
    ∀ w ∈ ws.toList, (ine && t.hollow w) = false ∧ w.settled ine t = true
  | .nil => by simp [OVals.settledE, OVals.toList]
  | .cons w ws => by
    simp only [OVals.settledE, OVals.toList, List.mem_cons, forall_eq_or_imp, Bool.and_eq_true, Bool.not_eq_true', settledE_iff ws]

theorem ovals_ext : ∀ {ws xs : OVals}, ws.toList = xs.toList → ws = xs
  | .nil, .nil, _ => rfl
  | .nil, .cons _ _, h => by simp [OVals.toList] at h
  | .cons _ _, .nil, h => by simp [OVals.toList] at h
  | .cons w ws, .cons x xs, h => by
    simp only [OVals.toList, List.cons.injEq] at h
    rw [h.1, ovals_ext h.2]

theorem toList_length : ∀ (ws : OVals), ws.toList.length = ws.length
  | .nil => rfl
  | .cons _ ws => by simp [OVals.toList, OVals.length, toList_length ws]

theorem perm_short {α : Type} {l m : List α} (h : l.Perm m) (hm : m.length ≤ 1) : l = m := by
  match m, hm with
  | [], _ => exact h.eq_nil
  | [a], _ => exact List.perm_singleton.1 h

mutual
theorem Alike.eq : ∀ {ine : Bool} {t : Ty} {w x : OVal}, Alike ine t w x → w.settled ine t = true → x = w
  | _, _, _, _, .leaf _ _ _ _, _ => rfl
  | _, _, _, _, .opened ine _ _ u w x h, hs => by
    simp only [OVal.settled] at hs
    rw [h.eq hs]
  | _, _, _, _, .seq _ _ _ cs ws xs h, hs => by
    simp only [OVal.settled] at hs
    rw [h.eq hs]
  | _, _, _, _, .seqOf ine a t ws xs h, hs => by
    simp only [OVal.settled, Bool.and_eq_true] at hs
    rw [ovals_ext (h.eq ((settledE_iff ws).1 hs.2))]
  | _, _, _, _, .setOf ine a t ws xs ys hp h, hs => by
    simp only [OVal.settled, Bool.and_eq_true, Bool.not_true, Bool.false_or, decide_eq_true_eq, ← toList_length] at hs
    have hy := perm_short hp hs.1
    have := h.eq (by rw [hy]; exact (settledE_iff ws).1 hs.2)
    rw [hy] at this
    rw [ovals_ext this]
  | _, _, _, _, .choice ine a cs i f t w x hi h, hs => by
    simp only [OVal.settled, hi] at hs
    rw [h.eq hs]
theorem AlikeE.eq : ∀ {ine : Bool} {t : Ty} {ws xs : List OVal}, AlikeE ine t ws xs →
    (∀ w ∈ ws, (ine && t.hollow w) = false ∧ w.settled ine t = true) → xs = ws
  | _, _, _, _, .nil _ _, _ => rfl
  | _, _, _, _, .cons _ _ _ _ _ _ h1 h2, hs => by
    simp only [List.mem_cons, forall_eq_or_imp] at hs
    rw [h1.eq hs.1.2, h2.eq hs.2]
  | _, _, _, _, .drop _ _ _ _ hh _, hs => by
    simp only [List.mem_cons, forall_eq_or_imp, hh, Bool.and_self, Bool.true_eq_false, false_and] at hs
theorem AlikeC.eq : ∀ {cs : Comps} {ws xs : OVals}, AlikeC cs ws xs → ws.settledC cs = true → xs = ws
  | _, _, _, .nil, _ => rfl
  | _, _, _, .cons _ _ _ _ _ _ _ h1 h2, hs => by
    simp only [OVals.settledC, Bool.and_eq_true] at hs
    rw [h1.eq hs.1.1 hs.1.2, h2.eq hs.2]
theorem AlikeF.eq : ∀ {f : Field} {t : Ty} {w x : OVal}, AlikeF f t w x →
    (decide (w = .leaf .absent) || !(f.mode.isOpt && t.hollow w)) = true → w.settled f.mode.isOpt t = true → x = w
  | _, _, _, _, .absent _ _ _, _, _ => rfl
  | _, _, _, _, .empty _ _ _ hm hh, h, _ => by
    simp only [hm, Mode.isOpt, hh, Bool.and_self, Bool.not_true, Bool.or_false, decide_eq_true_eq] at h
    exact h.symm
  | _, _, _, _, .dflt _ _ _ _, _, _ => rfl
  | _, _, _, _, .set _ _ _ _ h, _, hs => h.eq hs
end

end Asn1
end Verif
