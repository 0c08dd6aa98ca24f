import Verif.Asn1.OpenWhileAll

/-!
# A result that says everything does not change
-/

namespace Verif
namespace Asn1

open Nd

namespace Nd

/-- One result, which is not an exception. -/
def Only {α : Type} (p : Nd α) (a : α) : Prop := ∀ r, p r → r = some a

theorem Only.bind {α β : Type} {p : Nd α} {k : α → Nd β} {a : α} {b : β} (h1 : Only p a) (h2 : Only (k a) b) : Only (Nd.bind p k) b := by
  rintro r (⟨h, _⟩ | ⟨a', h, h'⟩)
  · exact absurd (h1 none h) (by simp)
  · have := h1 _ h
    simp only [Option.some.injEq] at this
    subst this
    exact h2 r h'

theorem Only.ret {α : Type} (a : α) : Only (Nd.ret a) a := fun _ h => h

theorem Only.lift {α : Type} {o : Option α} {a : α} (h : o = some a) : Only (Nd.lift o) a := fun _ h' => h'.trans h

theorem Only.map {α β : Type} {p : α → Nd β} {q : α → Option β} : ∀ {xs : List α} {ys : List β}, mapOpt q xs = some ys →
    (∀ x ∈ xs, ∀ y ∈ ys, q x = some y → Only (p x) y) → Only (Nd.map p xs) ys
  | [], ys, h, _ => by
    simp only [mapOpt, Option.some.injEq] at h
    subst h
    exact .ret []
  | x :: xs, ys, h, hp => by
    simp only [mapOpt] at h
    split at h
    · rename_i y ys' h1 h2
      simp only [Option.some.injEq] at h
      subst h
      exact .bind (hp x (by simp) y (by simp) h1) (.bind (.map h2 (fun x hx y hy => hp x (by simp [hx]) y (by simp [hy]))) (.ret _))
    · simp at h

end Nd

variable {D : Registry} {f : Ty → Bytes → Option OVal} {L : Looks} {F : Ty → Bytes → Nd OVal}

/-- The looks find what was in `D`. -/
def Keeps (D : Registry) (L : Looks) : Prop := ∀ m k u r, D m k = some u → L m k r → r = some u

/-- The same for what is decoded. -/
def KeepsEntire (D : Registry) (f : Ty → Bytes → Option OVal) (F : Ty → Bytes → Nd OVal) : Prop :=
  ∀ m k u c w, D m k = some u → f u c = some w → w.entire u = true → Only (F u c) w

theorem carries_closed {t : Ty} (h : carries t = true) : t.each Ty.closed = true := by
  cases t with
  | prim k a => simp [Ty.each, Ty.closed]
  | _ => simp [carries] at h

theorem carriesAll_closed {t : Ty} (h : carriesAll t = true) : t.each Ty.closed = true := by
  cases t with
  | of s a t => simp only [carriesAll] at h; simp [Ty.each, Ty.closed, carries_closed h]
  | prim k a => simp [Ty.each, Ty.closed]
  | _ => simp [carriesAll, carries] at h

def OVal.isLeaf : OVal → Bool
  | .leaf _ => true
  | _ => false

/-- Octets that have not been decoded, or a list of these. -/
def OVal.flat : OVal → Bool
  | .leaf _ => true
  | .list ws => ws.toList.all OVal.isLeaf
  | _ => false

theorem carries_leaf {t : Ty} (h : carries t = true) {x : TLV} {w : OVal} (hw : odecT D f t x = some w) : w.isLeaf = true := by
  cases t with
  | prim k a =>
    simp only [odecT, Option.map_eq_some_iff] at hw
    obtain ⟨v, _, rfl⟩ := hw
    rfl
  | _ => simp [carries] at h

theorem carriesAll_flat {t : Ty} (h : carriesAll t = true) {x : TLV} {w : OVal} (hw : odecT D f t x = some w) : w.flat = true := by
  cases t with
  | of s a t =>
    simp only [carriesAll] at h
    simp only [odecT] at hw
    split at hw
    · simp at hw
    · split at hw
      · simp at hw
      · rename_i vs hvs
        simp only [Option.some.injEq] at hw
        subst hw
        simp only [OVal.flat, OVals.toList_ofList, List.all_eq_true]
        intro v hv
        obtain ⟨y, _, hy⟩ := mapOpt_mem hvs v hv
        exact carries_leaf h hy
  | prim k a =>
    simp only [odecT, Option.map_eq_some_iff] at hw
    obtain ⟨v, _, rfl⟩ := hw
    rfl
  | _ => simp [carriesAll, carries] at h

/-! ## The open type fields -/

theorem openOne_entire {u : Ty} (hF : ∀ c w, f u c = some w → w.entire u = true → Only (F u c) w) {v w : OVal}
    (h : openOne f u v = some w) (t : Ty) (he : w.entire t = true) : Only (wopenOne F u v) w := by
  unfold openOne at h
  split at h
  · rename_i b
    simp only [Option.map_eq_some_iff] at h
    obtain ⟨o, h1, rfl⟩ := h
    have : o.entire u = true := by
      cases t <;> simpa [OVal.entire] using he
    exact .bind (hF b o h1 this) (.ret _)
  · simp at h

theorem entireE_mem {t : Ty} : ∀ {ws : OVals}, ws.entireE t = true → ∀ w ∈ ws.toList, w.entire t = true
  | .nil, _, w, hw => by simp [OVals.toList] at hw
  | .cons v ws, h, w, hw => by
    simp only [OVals.entireE, Bool.and_eq_true] at h
    simp only [OVals.toList, List.mem_cons] at hw
    rcases hw with rfl | hw
    · exact h.1
    · exact entireE_mem h.2 w hw

theorem openVal_entire {u : Ty} (hF : ∀ c w, f u c = some w → w.entire u = true → Only (F u c) w) {v w : OVal}
    (h : openVal f u v = some w) {t : Ty} (ht : carriesAll t = true) (hv : ∀ vs, v = .list vs → ∃ s a t', t = .of s a t')
    (he : w.entire t = true) : Only (wopenVal F u v) w := by
  cases v with
  | list vs =>
    obtain ⟨s, a, t', rfl⟩ := hv vs rfl
    simp only [openVal, Option.map_eq_some_iff] at h
    obtain ⟨ws, h1, rfl⟩ := h
    simp only [OVal.entire] at he
    refine .bind (.map h1 (fun x _ y hy hxy => openOne_entire hF hxy t' ?_)) (.ret _)
    exact entireE_mem he y (by rw [OVals.toList_ofList]; exact hy)
  | leaf v => exact openOne_entire hF h t he
  | _ => simp [openVal, openOne] at h

/-- A field that has not been decoded. -/
def Undecoded (t : Ty) (v : OVal) : Prop := v.flat = true ∧ carriesAll t = true ∧ ∀ ws, v = .list ws → ∃ s a t', t = .of s a t'

/-- The open type fields have not been decoded. -/
def Untouched : Comps → OVals → Prop
  | .cons fld t cs, .cons v vs => (fld.openType ≠ none → Undecoded t v) ∧ Untouched cs vs
  | _, _ => True

/-- In the other components everything has been decoded. -/
def Elsewhere : Comps → OVals → Prop
  | .cons fld t cs, .cons v vs => (fld.openType = none → v.entire t = true) ∧ Elsewhere cs vs
  | _, _ => True

theorem openField_entire (hL : Keeps D L) (hF : KeepsEntire D f F) (ds : Comps) (us : OVals) {fld : Field} {v w : OVal} {t : Ty}
    (h : openField D f ds us fld v = some w)
    (ht : fld.openType ≠ none → Undecoded t v)
    (he : (fld.openType.isNone || fld.mode.isOpt && w.isAbsent || w.shown) = true) (he' : w.entire t = true) :
    Only (wopenField L F ds us fld v) w := by
  unfold openField at h
  unfold wopenField
  cases ho : fld.openType with
  | none =>
    simp only [ho, Option.some.injEq] at h
    subst h
    exact .ret _
  | some o =>
    simp only [ho] at h
    dsimp only
    obtain ⟨t1, t2, t3⟩ := ht (by simp [ho])
    split at h
    · rename_i ha
      simp only [Option.some.injEq] at h
      subst h
      rw [if_pos ha]
      exact .ret _
    · rename_i ha
      rw [if_neg ha]
      cases hg : governor o.governor ds us with
      | none => simp [hg] at h
      | some g =>
        simp only [hg] at h
        dsimp only
        intro r hr
        obtain ⟨q, h1, h2⟩ := hr
        cases hD : D o.map g with
        | some u =>
          simp only [hD] at h
          have := hL _ _ u q hD h1
          subst this
          exact openVal_entire (hF _ _ u · · hD) h t2 t3 he' r h2
        | none =>
          simp only [hD, Option.some.injEq] at h
          subst h
          simp only [ho, Option.isNone_some, Bool.false_or, ha] at he
          cases v with
          | list vs =>
            have : vs = .nil := by
              cases vs with
              | nil => rfl
              | cons x xs =>
                simp only [OVal.shown, OVal.flat, OVals.toList, List.all_cons, Bool.and_eq_true] at he t1
                cases x <;> simp [OVal.isLeaf] at he t1
            subst this
            cases q with
            | none => exact h2
            | some u =>
              exact Only.bind (k := fun ws => Nd.ret (OVal.list (.ofList ws))) (Only.ret ([] : List OVal)) (Only.ret (OVal.list .nil)) r h2
          | leaf v => simp [OVal.shown] at he
          | _ => simp [OVal.flat] at t1

theorem openAll_entire (hL : Keeps D L) (hF : KeepsEntire D f F) (ds : Comps) (us : OVals) : ∀ {cs : Comps} {vs ws : OVals},
    openAll D f ds us cs vs = some ws → Untouched cs vs → ws.entireC cs = true → Only (wopenAll L F ds us cs vs) ws
  | .nil, _, _, h, _, _ => by
    simp only [openAll, Option.some.injEq] at h
    subst h
    simp only [wopenAll]
    exact .ret _
  | .cons _ _ _, .nil, _, h, _, _ => by
    simp only [openAll, Option.some.injEq] at h
    subst h
    simp only [wopenAll]
    exact .ret _
  | .cons fld t cs, .cons v vs, _, h, hp, he => by
    simp only [openAll] at h
    split at h
    · rename_i w ws h1 h2
      simp only [Option.some.injEq] at h
      subst h
      simp only [OVals.entireC, Bool.and_eq_true] at he
      simp only [wopenAll]
      exact .bind (openField_entire hL hF ds us h1 hp.1 he.1.1 he.1.2) (.bind (openAll_entire hL hF ds us h2 hp.2 he.2) (.ret _))
    · simp at h

theorem elsewhere_of_openAll (ds : Comps) (us : OVals) : ∀ {cs : Comps} {vs ws : OVals}, openAll D f ds us cs vs = some ws →
    ws.entireC cs = true → Elsewhere cs vs
  | .nil, _, _, _, _ => trivial
  | .cons _ _ _, .nil, _, _, _ => trivial
  | .cons fld t cs, .cons v vs, _, h, he => by
    simp only [openAll] at h
    split at h
    · rename_i w ws h1 h2
      simp only [Option.some.injEq] at h
      subst h
      simp only [OVals.entireC, Bool.and_eq_true] at he
      refine ⟨fun hn => ?_, elsewhere_of_openAll ds us h2 he.2⟩
      unfold openField at h1
      simp only [hn, Option.some.injEq] at h1
      rw [h1]
      exact he.1.2
    · simp at h

theorem elsewhere_of_entire : ∀ {cs : Comps} {vs : OVals}, vs.entireC cs = true → Elsewhere cs vs
  | .nil, _, _ => trivial
  | .cons _ _ _, .nil, _ => trivial
  | .cons fld t cs, .cons v vs, he => by
    simp only [OVals.entireC, Bool.and_eq_true] at he
    exact ⟨fun _ => he.1.2, elsewhere_of_entire he.2⟩

theorem undecoded_leaf {t : Ty} (h : carriesAll t = true) (v : Val) : Undecoded t (.leaf v) := ⟨rfl, h, by simp⟩

theorem undecoded_of {t : Ty} (h : carriesAll t = true) {x : TLV} {w : OVal} (hw : odecT D f t x = some w) : Undecoded t w := by
  refine ⟨carriesAll_flat h hw, h, ?_⟩
  rintro ws rfl
  cases t with
  | of s a t => exact ⟨s, a, t, rfl⟩
  | prim k a =>
    simp only [odecT, Option.map_eq_some_iff] at hw
    obtain ⟨v, _, hv⟩ := hw
    simp at hv
  | _ => simp [carriesAll, carries] at h

theorem governedBy_cons {ds : Comps} {fld : Field} {t : Ty} {cs : Comps} (h : Comps.governedBy ds (.cons fld t cs) = true) :
    (fld.openType ≠ none → carriesAll t = true) ∧ Comps.governedBy ds cs = true := by
  simp only [Comps.governedBy, Bool.and_eq_true] at h
  refine ⟨fun hn => ?_, h.2⟩
  cases ho : fld.openType with
  | none => exact absurd ho hn
  | some o =>
    have := h.1
    simp only [ho, Bool.and_eq_true] at this
    exact this.1.2

theorem untouched_of_odecComps (ds : Comps) : ∀ (cs : Comps) (xs : List TLV) (vs : OVals), Comps.governedBy ds cs = true →
    odecComps D f cs xs = some vs → Untouched cs vs
  | .nil, _, _, _, _ => trivial
  | .cons fld t cs, [], _, hg, h => by
    simp only [odecComps] at h
    split at h
    · rename_i v vs h1 h2
      simp only [Option.some.injEq] at h
      subst h
      exact ⟨fun hn => undecoded_leaf ((governedBy_cons hg).1 hn) v, untouched_of_odecComps ds cs [] vs (governedBy_cons hg).2 h2⟩
    · simp at h
  | .cons fld t cs, x :: xs, _, hg, h => by
    simp only [odecComps] at h
    split at h
    · split at h
      · rename_i v vs h1 h2
        simp only [Option.some.injEq] at h
        subst h
        exact ⟨fun hn => undecoded_of ((governedBy_cons hg).1 hn) h1, untouched_of_odecComps ds cs xs vs (governedBy_cons hg).2 h2⟩
      · simp at h
    · split at h
      · rename_i v vs h1 h2
        simp only [Option.some.injEq] at h
        subst h
        exact ⟨fun hn => undecoded_leaf ((governedBy_cons hg).1 hn) v, untouched_of_odecComps ds cs (x :: xs) vs (governedBy_cons hg).2 h2⟩
      · simp at h

/-- Without open types there is nothing that could change. -/
theorem closed_only {t : Ty} (ht : t.each Ty.closed = true) {x : TLV} {w : OVal} (h : odecT D f t x = some w) :
    Only (wdecT L F t x) w := by
  rw [wdecT_det (steady_closed (D := D) (f := f)) t x (Ty.useOnly_closed t ht)]
  exact .lift h

mutual
theorem wdecT_entire (hL : Keeps D L) (hF : KeepsEntire D f F) : ∀ (t : Ty) (x : TLV) (w : OVal), t.each Ty.governed = true →
    odecT D f t x = some w → w.entire t = true → Only (wdecT L F t x) w
  | .prim k a, x, w, _, h, _ => closed_only (by simp [Ty.each, Ty.closed]) h
  | .seq true a cs, x, w, hg, h, _ => by
    simp only [Ty.each, Ty.governed, Bool.and_eq_true] at hg
    exact closed_only (by simp [Ty.each, Ty.closed, hg.1.1, hg.1.2]) h
  | .seq false a cs, x, w, hg, h, he => by
    simp only [Ty.each, Ty.governed, Bool.and_eq_true] at hg
    simp only [odecT, Bool.false_eq_true, if_false] at h
    simp only [wdecT, Bool.false_eq_true, if_false]
    cases hx : innerItems a x with
    | none => simp [hx] at h
    | some xs =>
      simp only [hx] at h
      refine .bind (.lift rfl) ?_
      cases hv : odecComps D f cs xs with
      | none => simp [hv] at h
      | some vs =>
        simp only [hv] at h
        have hf := untouched_of_odecComps cs cs xs vs hg.1 hv
        unfold wfinish
        cases hn : cs.noOpen with
        | true =>
          simp only [hn, if_true] at h ⊢
          split at h
          · rename_i ha
            simp only [Option.some.injEq] at h
            subst h
            refine .bind (wdecComps_entire hL hF cs xs vs hg.2 hg.1 hv (elsewhere_of_entire (by simpa [OVal.entire] using he))) ?_
            rw [if_pos ha]
            exact .ret _
          · simp at h
        | false =>
          simp only [hn, Bool.false_eq_true, if_false, Option.map_eq_some_iff] at h ⊢
          obtain ⟨ws, h1, rfl⟩ := h
          have he : ws.entireC cs = true := by simpa [OVal.entire] using he
          exact .bind (wdecComps_entire hL hF cs xs vs hg.2 hg.1 hv (elsewhere_of_openAll cs vs h1 he))
            (.bind (openAll_entire hL hF cs vs h1 hf he) (.ret _))
  | .of s a t, x, w, hg, h, he => by
    simp only [Ty.each, Bool.and_eq_true] at hg
    simp only [odecT] at h
    simp only [wdecT]
    cases hx : innerItems a x with
    | none => simp [hx] at h
    | some xs =>
      simp only [hx] at h
      refine .bind (.lift rfl) ?_
      cases hv : mapOpt (odecT D f t) xs with
      | none => simp [hv] at h
      | some vs =>
        simp only [hv, Option.some.injEq] at h
        subst h
        simp only [OVal.entire] at he
        exact .bind (.map hv (fun y _ w hw hyw => wdecT_entire hL hF t y w hg.2 hyw
          (entireE_mem he w (by rw [OVals.toList_ofList]; exact hw)))) (.ret _)
  | .choice a cs, x, w, hg, h, he => by
    simp only [Ty.each, Bool.and_eq_true] at hg
    simp only [odecT] at h
    simp only [wdecT]
    have key : ∀ y, odecAlt D f cs 0 y = some w → Only (wdecAlt L F cs 0 y) w := by
      intro y hy
      refine wdecAlt_entire hL hF cs 0 y w hg.2 hy ?_
      rintro i fld t w' rfl hi
      simpa [OVal.entire, hi] using he
    cases ht : a.tags with
    | nil =>
      simp only [ht] at h
      exact key x h
    | cons hd tl =>
      rw [ht] at h
      dsimp only at h ⊢
      cases hu : unwrap (hd :: tl).reverse x with
      | none => simp only [hu, reduceCtorEq] at h
      | some y =>
        simp only [hu] at h
        cases hr : readTLV y.content with
        | none => simp [hr] at h
        | some z =>
          simp only [hr] at h
          exact .bind (.lift (by simp [hr])) (key z.1 h)
  | .bad _, _, _, _, h, _ => by simp [odecT] at h
theorem wdecComps_entire (hL : Keeps D L) (hF : KeepsEntire D f F) : ∀ (cs : Comps) (xs : List TLV) (vs : OVals) {ds : Comps},
    cs.each Ty.governed = true → Comps.governedBy ds cs = true → odecComps D f cs xs = some vs → Elsewhere cs vs →
    Only (wdecComps L F cs xs) vs
  | .nil, [], _, _, _, _, h, _ => by
    simp only [odecComps, Option.some.injEq] at h
    subst h
    simp only [wdecComps]
    exact .ret _
  | .nil, _ :: _, _, _, _, _, h, _ => by simp [odecComps] at h
  | .cons fld t cs, [], _, ds, hg, hb, h, hp => by
    simp only [Comps.each, Bool.and_eq_true] at hg
    simp only [odecComps] at h
    split at h
    · rename_i v vs h1 h2
      simp only [Option.some.injEq] at h
      subst h
      simp only [wdecComps]
      exact .bind (.lift h1) (.bind (wdecComps_entire hL hF cs [] vs hg.2 (governedBy_cons hb).2 h2 hp.2) (.ret _))
    · simp at h
  | .cons fld t cs, x :: xs, _, ds, hg, hb, h, hp => by
    simp only [Comps.each, Bool.and_eq_true] at hg
    simp only [odecComps] at h
    simp only [wdecComps]
    split at h
    · rename_i hc
      rw [if_pos hc]
      split at h
      · rename_i v vs h1 h2
        simp only [Option.some.injEq] at h
        subst h
        refine .bind ?_ (.bind (wdecComps_entire hL hF cs xs vs hg.2 (governedBy_cons hb).2 h2 hp.2) (.ret _))
        by_cases ho : fld.openType = none
        · exact wdecT_entire hL hF t x v hg.1 h1 (hp.1 ho)
        · exact closed_only (carriesAll_closed ((governedBy_cons hb).1 ho)) h1
      · simp at h
    · rename_i hc
      rw [if_neg hc]
      split at h
      · rename_i v vs h1 h2
        simp only [Option.some.injEq] at h
        subst h
        exact .bind (.lift h1) (.bind (wdecComps_entire hL hF cs (x :: xs) vs hg.2 (governedBy_cons hb).2 h2 hp.2) (.ret _))
      · simp at h
theorem wdecAlt_entire (hL : Keeps D L) (hF : KeepsEntire D f F) : ∀ (cs : Comps) (k : Nat) (x : TLV) (w : OVal),
    cs.each Ty.governed = true → odecAlt D f cs k x = some w →
    (∀ i fld t w', w = .alt (k + i) w' → cs.get? i = some (fld, t) → w'.entire t = true) → Only (wdecAlt L F cs k x) w
  | .nil, _, _, _, _, h, _ => by simp [odecAlt] at h
  | .cons fld t cs, k, x, w, hg, h, he => by
    simp only [Comps.each, Bool.and_eq_true] at hg
    simp only [odecAlt] at h
    simp only [wdecAlt]
    split at h
    · rename_i hc
      rw [if_pos hc]
      split at h
      · rename_i v hv
        simp only [Option.some.injEq] at h
        subst h
        exact .bind (wdecT_entire hL hF t x v hg.1 hv (he 0 fld t v rfl (by simp [Comps.get?]))) (.ret _)
      · simp at h
    · rename_i hc
      rw [if_neg hc]
      refine wdecAlt_entire hL hF cs (k + 1) x w hg.2 h (fun i f' t' w' e hi => he (i + 1) f' t' w' ?_ (by simpa [Comps.get?] using hi))
      rw [e]
      congr 1
      omega
end

/-- If the types in the dictionaries are governed, a result in which everything is decoded is the only one for all looks that
find what was in the dictionaries. -/
theorem wdecode_entire {D : Registry} {L : Looks} (hL : Keeps D L) (hg : ∀ m k u, D m k = some u → u.each Ty.governed = true) :
    ∀ (n n' : Nat) (t : Ty) (b : Bytes) (w : OVal) (r : Bytes), n ≤ n' → t.each Ty.governed = true → odecode D n t b = some (w, r) →
    w.entire t = true → Only (wdecode L n' t b) (w, r)
  | 0, _, _, _, _, _, _, _, h, _ => by simp [odecode] at h
  | n + 1, 0, _, _, _, _, hn, _, _, _ => by omega
  | n + 1, n' + 1, t, b, w, r, hn, ht, h, he => by
    simp only [odecode] at h
    simp only [wdecode]
    cases hx : readTLV b with
    | none => simp [hx] at h
    | some x =>
      simp only [hx] at h
      refine .bind (.lift rfl) ?_
      split at h
      · simp at h
      · rename_i w' hw
        simp only [Option.some.injEq, Prod.mk.injEq] at h
        obtain ⟨rfl, rfl⟩ := h
        refine .bind (wdecT_entire hL ?_ t x.1 w' ht hw he) (.ret _)
        intro m k u c w hm hc hu
        simp only [Option.map_eq_some_iff] at hc
        obtain ⟨⟨w1, r1⟩, h1, rfl⟩ := hc
        exact .bind (wdecode_entire hL hg n n' u c w1 r1 (by omega) (hg m k u hm) h1 hu) (.ret _)

end Asn1
end Verif
