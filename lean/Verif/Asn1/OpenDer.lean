import Verif.Spec.OpenDer
import Verif.Asn1.OpenTypes
import Verif.Asn1.OpenPlain
import Verif.Asn1.OpenEnc
import Verif.Asn1.DerUnique

/-!
# Decoding DER with open types and encoding it again
-/

namespace Verif
namespace Asn1

mutual
/-- `fields` and `contents` speak of the same fields. -/
theorem Ty.contents_fields (D : Registry) : ∀ (t : Ty) (v : Val), t.contents D v = (t.fields D v).map (fun c => (c.type, c.octets))
  | .seq _ _ cs, v => by
    cases v <;> simp only [Ty.contents, Ty.fields, List.map_nil]
    exact Comps.contents_fields D cs _ cs _
  | .of _ _ t, v => by
    cases v <;> simp only [Ty.contents, Ty.fields, List.map_nil]
    rw [List.map_flatMap]
    congr 1
    funext v
    exact Ty.contents_fields D t v
  | .choice _ cs, v => by
    cases v <;> simp only [Ty.contents, Ty.fields, List.map_nil]
    exact Comps.contentsAlt_fields D cs _ _
  | .prim _ _, v => by simp [Ty.contents, Ty.fields]
  | .bad _, v => by simp [Ty.contents, Ty.fields]
theorem Comps.contents_fields (D : Registry) (ds : Comps) (us : Vals) : ∀ (cs : Comps) (vs : Vals),
    Comps.contents D ds us cs vs = (Comps.fields D ds us cs vs).map (fun c => (c.type, c.octets))
  | .cons f t cs, .cons v vs => by
    simp only [Comps.contents, Comps.fields, List.map_append]
    rw [Ty.contents_fields D t v, Comps.contents_fields D ds us cs vs]
    congr 2
    cases f.openType with
    | none => rfl
    | some o =>
      simp only
      cases fieldVal o.governor ds us with
      | none => rfl
      | some g =>
        simp only [Option.bind_some]
        cases D o.map g with
        | none => rfl
        | some u => simp [Function.comp_def]
  | .nil, _ => by simp [Comps.contents, Comps.fields]
  | .cons _ _ _, .nil => by simp [Comps.contents, Comps.fields]
theorem Comps.contentsAlt_fields (D : Registry) : ∀ (cs : Comps) (i : Nat) (v : Val),
    cs.contentsAlt D i v = (cs.fieldsAlt D i v).map (fun c => (c.type, c.octets))
  | .cons _ t _, 0, v => by simp only [Comps.contentsAlt, Comps.fieldsAlt, Ty.contents_fields D t v]
  | .cons _ _ cs, i + 1, v => by simp only [Comps.contentsAlt, Comps.fieldsAlt, Comps.contentsAlt_fields D cs i v]
  | .nil, _, _ => by simp [Comps.contentsAlt, Comps.fieldsAlt]
end

/-- What has to be known about the contents of a field. -/
def Returns (P : Bool → Ty → Val → Bytes → Prop) (D : Registry) (g : Ty → Bytes → Option OVal) (c : Content) : Prop :=
  c.fits ∧ ∀ v r w, decode c.type c.octets = some (v, r) → g c.type c.octets = some w →
    P c.opt c.type v c.octets ∧ Opens (sideOf P D) c.opt c.type v w

theorem fieldsAlt_get {D : Registry} {v : Val} : ∀ {cs : Comps} {i : Nat} {f : Field} {t : Ty}, cs.get? i = some (f, t) →
    cs.fieldsAlt D i v = t.fields D v
  | .nil, _, _, _, h => by simp [Comps.get?] at h
  | .cons _ _ _, 0, _, _, h => by simp [Comps.get?] at h; simp [Comps.fieldsAlt, h.2]
  | .cons _ _ cs, i + 1, _, _, h => by simp only [Comps.get?] at h; simp [Comps.fieldsAlt, fieldsAlt_get h]

theorem each_get {p : Ty → Bool} : ∀ {cs : Comps} {i : Nat} {f : Field} {t : Ty}, cs.get? i = some (f, t) →
    cs.each p = true → t.each p = true
  | .nil, _, _, _, h, _ => by simp [Comps.get?] at h
  | .cons _ _ _, 0, _, _, h, hs => by
    simp [Comps.get?] at h
    simp only [Comps.each, Bool.and_eq_true] at hs
    rw [← h.2]; exact hs.1
  | .cons _ _ cs, i + 1, _, _, h, hs => by
    simp only [Comps.get?] at h
    simp only [Comps.each, Bool.and_eq_true] at hs
    exact each_get h hs.2

theorem carries_prim {t : Ty} (h : carries t = true) : ∃ k a, t = .prim k a ∧ (k = .any ∨ k = .octetString) := by
  cases t with
  | prim k a => cases k <;> simp [carries] at h <;> exact ⟨_, _, rfl, by simp⟩
  | _ => simp [carries] at h

mutual
/-- In `w`, the components of `v` that have their default value are plain values, and what is in an open type field was
made by `g`. -/
def Ty.calm (g : Ty → Bytes → Option OVal) : Ty → Val → OVal → Prop
  | .prim _ _, v, w => w = .leaf v ∨ ∃ u b o, v = .octets b ∧ w = .opened u o ∧ g u b = some o
  | .seq _ _ cs, .record vs, .record ws => cs.calm g vs ws
  | .of _ _ t, .list vs, .list ws => ∀ p ∈ vs.toList.zip ws.toList, t.calm g p.1 p.2
  | .choice _ cs, .alt i v, .alt _ w => cs.calmAlt g i v w
  | _, _, _ => True
def Comps.calm (g : Ty → Bytes → Option OVal) : Comps → Vals → OVals → Prop
  | .cons f t cs, .cons v vs, .cons w ws => (f.mode = .dflt v → w = .leaf v) ∧ t.calm g v w ∧ cs.calm g vs ws
  | _, _, _ => True
def Comps.calmAlt (g : Ty → Bytes → Option OVal) : Comps → Nat → Val → OVal → Prop
  | .cons _ t _, 0, v, w => t.calm g v w
  | .cons _ _ cs, i + 1, v, w => cs.calmAlt g i v w
  | .nil, _, _, _ => True
end

theorem calmAlt_get {g : Ty → Bytes → Option OVal} {v : Val} {w : OVal} : ∀ {cs : Comps} {i : Nat} {f : Field} {t : Ty},
    cs.get? i = some (f, t) → cs.calmAlt g i v w = t.calm g v w
  | .nil, _, _, _, h => by simp [Comps.get?] at h
  | .cons _ _ _, 0, _, _, h => by simp [Comps.get?] at h; simp [Comps.calmAlt, h.2]
  | .cons _ _ cs, i + 1, _, _, h => by simp only [Comps.get?] at h; simp [Comps.calmAlt, calmAlt_get h]

theorem calm_leaf {g : Ty → Bytes → Option OVal} (t : Ty) (v : Val) : t.calm g v (.leaf v) := by
  cases t <;> cases v <;> simp [Ty.calm]

theorem openOne_calm {g : Ty → Bytes → Option OVal} {t u : Ty} {v : Val} {w w' : OVal} (hc : carries t = true)
    (h : t.calm g v w) (ho : openOne g u w = some w') : t.calm g v w' := by
  obtain ⟨k, a, rfl, _⟩ := carries_prim hc
  simp only [Ty.calm] at h
  rcases h with rfl | ⟨_, _, _, _, rfl, _⟩
  · cases v <;> simp only [openOne, reduceCtorEq, Option.map_eq_some_iff] at ho
    obtain ⟨o, h1, rfl⟩ := ho
    exact .inr ⟨u, _, o, rfl, rfl, h1⟩
  · simp [openOne] at ho

theorem openVal_calm {g : Ty → Bytes → Option OVal} {t u : Ty} {v : Val} {w w' : OVal} (hc : carriesAll t = true)
    (h : t.calm g v w) (ho : openVal g u w = some w') : t.calm g v w' := by
  cases t with
  | of s a t =>
    by_cases hl : ∃ vs us, v = .list vs ∧ w = .list us
    rotate_left
    · cases w with
      | list us =>
        cases v <;> first | exact absurd ⟨_, _, rfl, rfl⟩ hl | simp [Ty.calm]
      | leaf x =>
        cases x <;> simp only [openVal, openOne, reduceCtorEq, Option.map_eq_some_iff] at ho
        obtain ⟨o, _, rfl⟩ := ho
        cases v <;> simp [Ty.calm]
      | _ => simp [openVal, openOne] at ho
    obtain ⟨vs, us, rfl, rfl⟩ := hl
    simp only [openVal, Option.map_eq_some_iff] at ho
    obtain ⟨ws, h1, rfl⟩ := ho
    simp only [Ty.calm, OVals.toList_ofList] at h ⊢
    rw [mapOpt_all2] at h1
    have key : ∀ (vs : List Val) (us ws : List OVal), (∀ p ∈ vs.zip us, t.calm g p.1 p.2) →
        all2 (fun a b => openOne g u a = some b) us ws → ∀ p ∈ vs.zip ws, t.calm g p.1 p.2 := by
      intro vs us
      induction us generalizing vs with
      | nil =>
        intro ws _ hw p hp
        cases ws with
        | nil => simp at hp
        | cons => exact hw.elim
      | cons x us ih =>
        intro ws hu hw p hp
        cases ws with
        | nil => exact hw.elim
        | cons y ws =>
          cases vs with
          | nil => simp at hp
          | cons v vs =>
            simp only [List.zip_cons_cons, List.mem_cons, forall_eq_or_imp] at hu hp
            rcases hp with rfl | hp
            · exact openOne_calm hc hu.1 hw.1
            · exact ih vs ws hu.2 hw.2 p hp
    exact key _ _ _ h h1
  | prim k a =>
    have : openOne g u w = some w' := by
      simp only [Ty.calm] at h
      rcases h with rfl | ⟨_, _, _, _, rfl, _⟩ <;> exact ho
    exact openOne_calm hc h this
  | _ => simp [carriesAll, carries] at hc

theorem content_enc {P : Bool → Ty → Val → Bytes → Prop} {D : Registry} {g : Ty → Bytes → Option OVal} {ine : Bool} {m : Ident} {k : Val} {t u : Ty} {b r : Bytes} {v : Val} {w : OVal}
    (hc : carries t = true) (h : Returns P D g ⟨ine, m, k, t, u, b⟩) (hd : decode u b = some (v, r))
    (ho : t.calm g (.octets b) (.opened u w)) :
    (sideOf P D).content ine t u b v ∧ Opens (sideOf P D) ine u v w := by
  obtain ⟨h1, h2⟩ := h
  obtain ⟨k, a, rfl, hk⟩ := carries_prim hc
  have hw : g u b = some w := by
    simp only [Ty.calm, reduceCtorEq, false_or] at ho
    obtain ⟨_, _, _, e1, e2, e3⟩ := ho
    simp only [Val.octets.injEq, OVal.opened.injEq] at e1 e2
    rw [e1, e2.1, e2.2]
    exact e3
  obtain ⟨h3, h4⟩ := h2 v r w hd hw
  refine ⟨⟨h3, k, a, rfl, hk, ?_⟩, h4⟩
  simp only [Content.fits] at h1
  by_cases ht : a.tags = []
  · exact .inr ht
  · refine .inl ?_
    simp only [sameType, Bool.and_eq_false_iff]
    by_cases hx : (Ty.prim k a).tags = u.tags
    · exact .inr (decide_eq_false (fun hy => ht (h1 hx hy)))
    · exact .inl (decide_eq_false hx)

theorem governedBy_noOpen (ds : Comps) : ∀ cs : Comps, cs.noOpen = true → Comps.governedBy ds cs = true
  | .nil, _ => rfl
  | .cons f t cs, h => by
    simp only [Comps.noOpen, Bool.and_eq_true, Option.isNone_iff_eq_none] at h
    simp [Comps.governedBy, h.1, governedBy_noOpen ds cs h.2]

theorem openAll_calm {D : Registry} {g : Ty → Bytes → Option OVal} {ds : Comps} {us : OVals} :
    ∀ {cs : Comps} {vs : Vals} {ws ws' : OVals}, Comps.governedBy ds cs = true → cs.calm g vs ws →
    openAll D g ds us cs ws = some ws' → cs.calm g vs ws'
  | .nil, vs, _, _, _, _, _ => by cases vs <;> simp [Comps.calm]
  | .cons f t cs, .nil, _, _, _, _, _ => by simp [Comps.calm]
  | .cons f t cs, .cons v vs, .nil, ws', _, _, h => by simp [openAll] at h; subst h; simp [Comps.calm]
  | .cons f t cs, .cons v vs, .cons w ws, ws', hg, hc, h => by
    simp only [Comps.governedBy, Bool.and_eq_true] at hg
    simp only [openAll] at h
    split at h
    · rename_i w' ws'' h1 h2
      simp only [Option.some.injEq] at h
      subst h
      simp only [Comps.calm] at hc ⊢
      refine ⟨?_, ?_, openAll_calm hg.2 hc.2.2 h2⟩
      · intro hm
        cases ho : f.openType with
        | none => simp [openField, ho] at h1; rw [← h1]; exact hc.1 hm
        | some o => simp [ho, hm, Mode.isReq, Mode.isOpt] at hg
      · cases ho : f.openType with
        | none => simp [openField, ho] at h1; rw [← h1]; exact hc.2.1
        | some o =>
          have hg := hg.1
          simp only [ho, Bool.and_eq_true] at hg
          simp only [openField, ho] at h1
          split at h1
          · simp only [Option.some.injEq] at h1; rw [← h1]; exact hc.2.1
          · split at h1
            · simp at h1
            · split at h1
              · simp only [Option.some.injEq] at h1; rw [← h1]; exact hc.2.1
              · exact openVal_calm hg.1.2 hc.2.1 h1
    · simp at h

theorem mapOpt_zip {α β γ : Type} {p : α → Option β} {q : α → Option γ} : ∀ {xs : List α} {ys : List β} {zs : List γ},
    mapOpt p xs = some ys → mapOpt q xs = some zs → ∀ r ∈ ys.zip zs, ∃ x ∈ xs, p x = some r.1 ∧ q x = some r.2
  | [], ys, zs, h1, h2, r, hr => by simp [mapOpt] at h1; subst h1; simp at hr
  | x :: xs, ys, zs, h1, h2, r, hr => by
    simp only [mapOpt] at h1 h2
    split at h1 <;> simp at h1
    rename_i h3 h4
    split at h2 <;> simp at h2
    rename_i h5 h6
    subst h1; subst h2
    simp only [List.zip_cons_cons, List.mem_cons] at hr
    rcases hr with rfl | hr
    · exact ⟨x, by simp, h3, h5⟩
    · obtain ⟨y, hy, h7⟩ := mapOpt_zip h4 h6 r hr
      exact ⟨y, by simp [hy], h7⟩

theorem mapOpt_last {α β γ : Type} {p : α → Option β} {q : α → Option γ} {xs : List α} {ys : List β} {zs : List γ}
    (h1 : mapOpt p xs = some ys) (h2 : mapOpt q xs = some zs) :
    (∃ x ∈ xs, ∃ y z, ys.getLast? = some y ∧ zs.getLast? = some z ∧ p x = some y ∧ q x = some z) ∨
    (ys.getLast? = none ∧ zs.getLast? = none) := by
  rw [mapOpt_all2] at h1 h2
  cases hx : xs.getLast? with
  | none =>
    rw [List.getLast?_eq_none_iff] at hx
    subst hx
    refine .inr ⟨?_, ?_⟩
    · cases ys with
      | nil => rfl
      | cons => exact h1.elim
    · cases zs with
      | nil => rfl
      | cons => exact h2.elim
  | some x =>
    have hl : ∀ {δ : Type} {r : α → Option δ} {ds : List δ}, all2 (fun a d => r a = some d) xs ds →
        ∃ d, ds.getLast? = some d ∧ r x = some d := by
      intro δ r ds h
      cases hd : ds.getLast? with
      | none =>
        rw [List.getLast?_eq_none_iff] at hd
        subst hd
        cases xs with
        | nil => simp at hx
        | cons => exact h.elim
      | some d =>
        obtain ⟨a, h3, h4⟩ := all2_getLast xs ds d h hd
        rw [hx, Option.some.injEq] at h3
        subst h3
        exact ⟨d, rfl, h4⟩
    obtain ⟨y, h3, h4⟩ := hl h1
    obtain ⟨z, h5, h6⟩ := hl h2
    exact .inl ⟨x, List.mem_of_getLast? hx, y, z, h3, h5, h4, h6⟩

mutual
/-- Where no default is written out, all defaults come from the type. -/
theorem odecT_calm {D : Registry} {g : Ty → Bytes → Option OVal} : ∀ (t : Ty) (x : TLV) (v : Val) (w : OVal),
    t.each Ty.governed = true → decT t x = some v → odecT D g t x = some w → t.strict x → t.calm g v w
  | .prim k a, x, v, w, _, h1, h2, _ => by
    simp only [decT] at h1
    simp only [odecT, h1, Option.map_some, Option.some.injEq] at h2
    exact .inl h2.symm
  | .bad _, x, v, w, _, h, _, _ => by simp [decT] at h
  | .seq s a cs, x, v, w, hg, h1, h2, hs => by
    simp only [Ty.each, Bool.and_eq_true] at hg
    simp only [decT] at h1
    simp only [odecT] at h2
    simp only [Ty.strict] at hs
    cases hx : innerItems a x with
    | none => simp [hx] at h1
    | some xs =>
      simp only [hx] at h1 h2
      have hs := hs xs hx
      have hb : Comps.governedBy cs cs = true := by
        cases s with
        | false => exact hg.1
        | true =>
          have := hg.1
          simp only [Ty.governed, Bool.and_eq_true] at this
          exact governedBy_noOpen cs cs this.1
      split at h1 <;> try simp only [reduceCtorEq] at h1
      rename_i vs hvs
      split at h2 <;> try simp only [reduceCtorEq] at h2
      rename_i ws hws
      have hc : cs.calm g vs ws := by
        cases s with
        | false =>
          simp only [Bool.false_eq_true, if_false] at hvs hws hs
          exact odecComps_calm cs xs vs ws hg.2 hvs hws hs
        | true =>
          simp only [if_true] at hvs hws hs
          split at hvs <;> try simp only [reduceCtorEq] at hvs
          rename_i hall
          rw [if_pos hall] at hws
          exact odecSet_calm cs xs vs ws hg.2 hvs hws hs
      have hv : v = .record vs := by
        split at h1 <;> simp at h1
        exact h1.symm
      subst hv
      split at h2
      · split at h2 <;> simp at h2
        subst h2
        simpa only [Ty.calm] using hc
      · simp only [Option.map_eq_some_iff] at h2
        obtain ⟨ws', h3, rfl⟩ := h2
        simpa only [Ty.calm] using openAll_calm hb hc h3
  | .of s a t, x, v, w, hg, h1, h2, hs => by
    simp only [Ty.each, Bool.and_eq_true] at hg
    simp only [decT] at h1
    simp only [odecT] at h2
    simp only [Ty.strict] at hs
    cases hx : innerItems a x with
    | none => simp [hx] at h1
    | some xs =>
      simp only [hx] at h1 h2
      have hs := hs xs hx
      split at h1 <;> simp at h1
      rename_i vs hvs
      split at h2 <;> simp at h2
      rename_i ws hws
      subst h1; subst h2
      simp only [Ty.calm, Vals.toList_ofList, OVals.toList_ofList]
      intro p hp
      obtain ⟨y, hy, h3, h4⟩ := mapOpt_zip hvs hws p hp
      exact odecT_calm t y p.1 p.2 hg.2 h3 h4 (hs y hy)
  | .choice a cs, x, v, w, hg, h1, h2, hs => by
    simp only [Ty.each, Bool.and_eq_true] at hg
    simp only [decT] at h1
    simp only [odecT] at h2
    simp only [Ty.strict] at hs
    cases ht : a.tags with
    | nil =>
      simp only [ht] at h1 h2 hs
      obtain ⟨i, v', w', rfl, rfl, h3⟩ := odecAlt_calm cs 0 x v w hg.2 h1 h2 hs
      simpa only [Ty.calm, Nat.zero_add] using h3
    | cons t ts =>
      simp only [ht] at h1 h2 hs
      split at h1 <;> try simp only [reduceCtorEq] at h1
      rename_i y hy
      simp only [hy] at h2
      split at h1 <;> try simp only [reduceCtorEq] at h1
      rename_i z r hz
      simp only [hz] at h2
      obtain ⟨i, v', w', rfl, rfl, h3⟩ := odecAlt_calm cs 0 z v w hg.2 h1 h2 (hs y z r hy hz)
      simpa only [Ty.calm, Nat.zero_add] using h3
theorem odecComps_calm {D : Registry} {g : Ty → Bytes → Option OVal} : ∀ (cs : Comps) (xs : List TLV) (vs : Vals) (ws : OVals),
    cs.each Ty.governed = true → decComps cs xs = some vs → odecComps D g cs xs = some ws → cs.strictSeq xs → cs.calm g vs ws
  | .nil, _, vs, ws, _, _, _, _ => by cases vs <;> simp [Comps.calm]
  | .cons f t cs, [], vs, ws, hg, h1, h2, hs => by
    simp only [Comps.each, Bool.and_eq_true] at hg
    simp only [decComps] at h1
    simp only [odecComps] at h2
    split at h1 <;> simp at h1
    rename_i v vs' hm hvs
    simp only [hm] at h2
    split at h2 <;> simp at h2
    rename_i v'' ws' hm' hws
    subst h1; subst h2
    simp only [Option.some.injEq] at hm'
    subst hm'
    exact ⟨fun _ => rfl, calm_leaf t v, odecComps_calm cs [] vs' ws' hg.2 hvs hws (by cases cs <;> simp [Comps.strictSeq])⟩
  | .cons f t cs, x :: xs, vs, ws, hg, h1, h2, hs => by
    simp only [Comps.each, Bool.and_eq_true] at hg
    simp only [decComps] at h1
    simp only [odecComps] at h2
    simp only [Comps.strictSeq] at hs
    split at h1
    · rename_i hc
      rw [if_pos hc] at h2 hs
      split at h1 <;> simp at h1
      rename_i v vs' hv hvs
      split at h2 <;> simp at h2
      rename_i w ws' hw hws
      subst h1; subst h2
      exact ⟨fun hm => absurd hm (hs.2.1 v hv), odecT_calm t x v w hg.1 hv hw hs.1, odecComps_calm cs xs vs' ws' hg.2 hvs hws hs.2.2⟩
    · rename_i hc
      rw [if_neg hc] at h2 hs
      split at h1 <;> simp at h1
      rename_i v vs' hm hvs
      simp only [hm] at h2
      split at h2 <;> simp at h2
      rename_i v'' ws' hm' hws
      subst h1; subst h2
      simp only [Option.some.injEq] at hm'
      subst hm'
      exact ⟨fun _ => rfl, calm_leaf t v, odecComps_calm cs (x :: xs) vs' ws' hg.2 hvs hws hs⟩
theorem odecSet_calm {D : Registry} {g : Ty → Bytes → Option OVal} : ∀ (cs : Comps) (xs : List TLV) (vs : Vals) (ws : OVals),
    cs.each Ty.governed = true → decSet cs xs = some vs → odecSet D g cs xs = some ws → cs.strictSet xs → cs.calm g vs ws
  | .nil, _, vs, ws, _, _, _, _ => by cases vs <;> simp [Comps.calm]
  | .cons f t cs, xs, vs, ws, hg, h1, h2, hs => by
    simp only [Comps.each, Bool.and_eq_true] at hg
    simp only [decSet] at h1
    simp only [odecSet] at h2
    simp only [Comps.strictSet] at hs
    split at h1 <;> try simp only [reduceCtorEq] at h1
    rename_i us vs' hus hvs
    split at h2 <;> try simp only [reduceCtorEq] at h2
    rename_i os ws' hos hws
    have hrest := odecSet_calm cs xs vs' ws' hg.2 hvs hws hs.2
    rcases mapOpt_last hus hos with ⟨x, hx, y, z, h3, h4, h5, h6⟩ | ⟨h3, h4⟩
    · simp only [h3] at h1
      simp only [h4] at h2
      simp only [Option.some.injEq] at h1 h2
      subst h1; subst h2
      rw [List.mem_filter] at hx
      obtain ⟨k1, k2⟩ := hs.1 x hx.1 hx.2
      exact ⟨fun hm => absurd hm (k2 y h5), odecT_calm t x y z hg.1 h5 h6 k1, hrest⟩
    · simp only [h3] at h1
      simp only [h4] at h2
      split at h1 <;> simp at h1
      rename_i v hm
      simp only [hm, Option.some.injEq] at h2
      subst h1; subst h2
      exact ⟨fun _ => rfl, calm_leaf t v, hrest⟩
theorem odecAlt_calm {D : Registry} {g : Ty → Bytes → Option OVal} : ∀ (cs : Comps) (k : Nat) (x : TLV) (v : Val) (w : OVal),
    cs.each Ty.governed = true → decAlt cs k x = some v → odecAlt D g cs k x = some w → cs.strictAlt x →
    ∃ i v' w', v = .alt (k + i) v' ∧ w = .alt (k + i) w' ∧ cs.calmAlt g i v' w'
  | .nil, _, _, _, _, _, h, _, _ => by simp [decAlt] at h
  | .cons f t cs, k, x, v, w, hg, h1, h2, hs => by
    simp only [Comps.each, Bool.and_eq_true] at hg
    simp only [decAlt] at h1
    simp only [odecAlt] at h2
    simp only [Comps.strictAlt] at hs
    split at h1
    · rename_i hm
      rw [if_pos hm] at h2 hs
      split at h1 <;> simp at h1
      rename_i v' hv
      split at h2 <;> simp at h2
      rename_i w' hw
      exact ⟨0, v', w', h1.symm, h2.symm, odecT_calm t x v' w' hg.1 hv hw hs⟩
    · rename_i hm
      rw [if_neg hm] at h2 hs
      obtain ⟨i, v', w', e1, e2, e3⟩ := odecAlt_calm cs (k + 1) x v w hg.2 h1 h2 hs
      have hk : k + 1 + i = k + (i + 1) := by omega
      exact ⟨i + 1, v', w', by rw [e1, hk], by rw [e2, hk], e3⟩
end

theorem fields_absent {D : Registry} (t : Ty) : t.fields D .absent = [] := by
  cases t <;> simp [Ty.fields]

theorem validAlt_get {v : Val} : ∀ {cs : Comps} {i : Nat} {f : Field} {t : Ty}, cs.get? i = some (f, t) →
    cs.validAlt i v = true → t.valid v = true
  | .nil, _, _, _, h, _ => by simp [Comps.get?] at h
  | .cons _ _ _, 0, _, _, h, hs => by simp [Comps.get?] at h; simpa [Comps.validAlt, h.2] using hs
  | .cons _ _ cs, i + 1, _, _, h, hs => by
    simp only [Comps.get?] at h
    simp only [Comps.validAlt] at hs
    exact validAlt_get h hs

/-- The fields of one component that is an open type. -/
def openFields (D : Registry) (ds : Comps) (us : Vals) (f : Field) (t : Ty) (v : Val) : List Content :=
  match f.openType with
  | none => []
  | some o => match fieldVal o.governor ds us with
    | none => []
    | some g => match D o.map g with
      | none => []
      | some u => (octetsIn v).map (fun b => ⟨f.mode.isOpt, o.map, g, t.item, u, b⟩)

mutual
/-- The contents of all fields are encodings, so that the whole is. -/
theorem Opens.raise {P : Bool → Ty → Val → Bytes → Prop} {D : Registry} {g : Ty → Bytes → Option OVal} : ∀ {ine : Bool} {t : Ty} {v : Val} {w : OVal}, Opens (plainSide D) ine t v w →
    t.each Ty.governed = true → (t.valid v = true ∨ t.fields D v = []) → t.calm g v w →
    (∀ c ∈ t.fields D v, Returns P D g c) → Opens (sideOf P D) ine t v w
  | _, _, _, _, .prim ine k a v, _, _, _, _ => .prim ine k a v
  | _, _, _, _, .seq ine s a cs vs ws _ hc, hg, hv, hs, hf => by
    simp only [Ty.each, Bool.and_eq_true] at hg
    simp only [Ty.calm] at hs
    simp only [Ty.fields] at hf hv
    have hb : Comps.governedBy cs cs = true ∧ (s = true → cs.noOpen = true) := by
      cases s with
      | false => exact ⟨hg.1, by simp⟩
      | true =>
        have := hg.1
        simp only [Ty.governed, Bool.and_eq_true] at this
        exact ⟨governedBy_noOpen cs cs this.1, fun _ => this.1⟩
    have hv' : cs.valid vs = true ∨ Comps.fields D cs vs cs vs = [] := by
      rcases hv with hv | hv
      · simp only [Ty.valid, Bool.and_eq_true] at hv
        exact .inl hv.1
      · exact .inr hv
    exact .seq ine s a cs vs ws hb.2 (hc.raise hb.1 hg.2 hv' hs hf)
  | _, _, _, _, .of ine s a t vs ws he, hg, hv, hs, hf => by
    simp only [Ty.each, Bool.and_eq_true] at hg
    simp only [Ty.calm] at hs
    simp only [Ty.fields, List.mem_flatMap] at hf
    simp only [Ty.fields, List.flatMap_eq_nil_iff] at hv
    have hv' : ∀ v ∈ vs.toList, t.valid v = true ∨ t.fields D v = [] := by
      intro v hm
      rcases hv with hv | hv
      · simp only [Ty.valid, Bool.and_eq_true, Vals.every_iff, List.all_eq_true] at hv
        exact .inl (hv.1 v hm)
      · exact .inr (hv v hm)
    exact .of ine s a t vs ws (he.raise hg.2 hv' hs (fun v hv c hc => hf c ⟨v, hv, hc⟩))
  | _, _, _, _, .choice ine a cs i f t v w hi hw, hg, hv, hs, hf => by
    simp only [Ty.each, Bool.and_eq_true] at hg
    simp only [Ty.calm] at hs
    simp only [Ty.fields, fieldsAlt_get hi] at hf hv
    have hv' : t.valid v = true ∨ t.fields D v = [] := by
      rcases hv with hv | hv
      · simp only [Ty.valid] at hv
        exact .inl (validAlt_get hi hv)
      · exact .inr hv
    exact .choice ine a cs i f t v w hi (hw.raise (each_get hi hg.2) hv' (by rwa [calmAlt_get hi] at hs) hf)
theorem OpensE.raise {P : Bool → Ty → Val → Bytes → Prop} {D : Registry} {g : Ty → Bytes → Option OVal} : ∀ {ine : Bool} {t : Ty} {vs : Vals} {ws : OVals}, OpensE (plainSide D) ine t vs ws →
    t.each Ty.governed = true → (∀ v ∈ vs.toList, t.valid v = true ∨ t.fields D v = []) →
    (∀ p ∈ vs.toList.zip ws.toList, t.calm g p.1 p.2) → (∀ v ∈ vs.toList, ∀ c ∈ t.fields D v, Returns P D g c) →
    OpensE (sideOf P D) ine t vs ws
  | _, _, _, _, .nil ine t, _, _, _, _ => .nil ine t
  | _, _, _, _, .cons ine t v w vs ws h1 h2, hg, hv, hs, hf => by
    simp only [Vals.toList, OVals.toList, List.zip_cons_cons, List.mem_cons, forall_eq_or_imp] at hs hf hv
    exact .cons ine t v w vs ws (h1.raise hg hv.1 hs.1 hf.1) (h2.raise hg hv.2 hs.2 hf.2)
theorem OpensC.raise {P : Bool → Ty → Val → Bytes → Prop} {D : Registry} {g : Ty → Bytes → Option OVal} : ∀ {ds : Comps} {us : Vals} {cs : Comps} {vs : Vals} {ws : OVals},
    OpensC (plainSide D) ds us cs vs ws → Comps.governedBy ds cs = true → cs.each Ty.governed = true →
    (cs.valid vs = true ∨ Comps.fields D ds us cs vs = []) →
    cs.calm g vs ws → (∀ c ∈ Comps.fields D ds us cs vs, Returns P D g c) → OpensC (sideOf P D) ds us cs vs ws
  | _, _, _, _, _, .nil ds us, _, _, _, _, _ => .nil ds us
  | _, _, _, _, _, .cons ds us f t cs v vs w ws h1 h2, hb, hg, hv, hs, hf => by
    simp only [Comps.governedBy, Bool.and_eq_true] at hb
    simp only [Comps.each, Bool.and_eq_true] at hg
    simp only [Comps.calm] at hs
    simp only [Comps.fields, List.mem_append] at hf
    simp only [Comps.fields, List.append_eq_nil_iff, Comps.valid, Bool.and_eq_true] at hv
    have h3 : (t.valid v = true ∨ t.fields D v = [] ∨ f.mode = .dflt v) ∧
        (t.valid v = true ∨ v = .absent ∨ f.mode = .dflt v ∨ openFields D ds us f t v = []) := by
      rcases hv with hv | hv
      · have hv := hv.1
        cases hm : f.mode with
        | req => simp only [hm] at hv; exact ⟨.inl hv, .inl hv⟩
        | opt =>
          simp only [hm, Bool.or_eq_true, beq_iff_eq] at hv
          rcases hv with hv | hv
          · subst hv; exact ⟨.inr (.inl (fields_absent t)), .inr (.inl rfl)⟩
          · exact ⟨.inl hv, .inl hv⟩
        | dflt d =>
          simp only [hm, Bool.or_eq_true, beq_iff_eq] at hv
          rcases hv with hv | hv
          · subst hv; exact ⟨.inr (.inr rfl), .inr (.inr (.inl rfl))⟩
          · exact ⟨.inl hv, .inl hv⟩
      · exact ⟨.inr (.inl hv.1.1), .inr (.inr (.inr hv.1.2))⟩
    exact .cons ds us f t cs v vs w ws
      (h1.raise hb.1 hg.1 h3.1 h3.2 hs.1 hs.2.1 (fun c hc => hf c (.inl (.inl hc))) (fun c hc => hf c (.inl (.inr hc))))
      (h2.raise hb.2 hg.2 (hv.imp And.right And.right) hs.2.2 (fun c hc => hf c (.inr hc)))
theorem OpensF.raise {P : Bool → Ty → Val → Bytes → Prop} {D : Registry} {g : Ty → Bytes → Option OVal} : ∀ {ds : Comps} {us : Vals} {f : Field} {t : Ty} {v : Val} {w : OVal},
    OpensF (plainSide D) ds us f t v w → (match f.openType with
     | none => true
     | some o => selects (ds.find o.governor) && carriesAll t && (f.mode.isReq || f.mode.isOpt)) = true →
    t.each Ty.governed = true → (t.valid v = true ∨ t.fields D v = [] ∨ f.mode = .dflt v) →
    (t.valid v = true ∨ v = .absent ∨ f.mode = .dflt v ∨ openFields D ds us f t v = []) →
    (f.mode = .dflt v → w = .leaf v) → t.calm g v w →
    (∀ c ∈ t.fields D v, Returns P D g c) → (∀ c ∈ openFields D ds us f t v, Returns P D g c) →
    OpensF (sideOf P D) ds us f t v w
  | _, _, _, _, _, _, .absent ds us f t hm, _, _, _, _, _, _, _, _ => .absent ds us f t hm
  | _, _, _, _, _, _, .dflt ds us f t v hm ho, _, _, _, _, _, _, _, _ => .dflt ds us f t v hm ho
  | _, _, _, _, _, _, .plain ds us f t v w ho _ hw, _, hg, hv, _, hd, hs, hf, _ => by
    by_cases hm : f.mode = .dflt v
    · have := hd hm
      subst this
      refine .plain ds us f t v _ ho (fun _ => by simp [OVal.plain?]) ?_
      cases hw
      exact .prim _ _ _ _
    · exact .plain ds us f t v w ho (fun h => absurd h hm) (hw.raise hg (hv.imp_right (·.resolve_right hm)) hs hf)
  | _, _, _, _, _, _, .unknown ds us f t v w o g ho hr1 hr _ hw, hb, hg, hv, _, hd, hs, hf, _ => by
    have hm : f.mode ≠ .dflt v := by
      intro hm
      simp [ho, hm, Mode.isReq, Mode.isOpt] at hb
    exact .unknown ds us f t v w o g ho hr1 hr (fun h => absurd h hm) (hw.raise hg (hv.imp_right (·.resolve_right hm)) hs hf)
  | _, _, _, _, _, _, .known ds us f t v w o g u ho hr1 hr _ hw, hb, hg, _, hv, hd, hs, hf, hk => by
    simp only [ho, Bool.and_eq_true] at hb
    have hm : f.mode ≠ .dflt v := by
      intro hm
      have := hb.2
      simp [hm, Mode.isReq, Mode.isOpt] at this
    have hr' : D o.map g = some u := hr
    simp only [openFields, ho, hr1, hr', List.mem_map, List.map_eq_nil_iff] at hk hv
    have hv : t.valid v = true ∨ octetsIn v = [] := by
      rcases hv with hv | hv | hv | hv
      · exact .inl hv
      · subst hv; exact .inr rfl
      · exact absurd hv hm
      · exact .inr hv
    exact .known ds us f t v w o g u ho hr1 hr (fun h => absurd h hm)
      (hw.raise hb.1.2 hv (fun b hb => hk _ ⟨b, hb, rfl⟩) hs)
theorem OpensV.raise {P : Bool → Ty → Val → Bytes → Prop} {D : Registry} {g : Ty → Bytes → Option OVal} : ∀ {ine : Bool} {m : Ident} {k : Val} {t u : Ty} {v : Val} {w : OVal}, OpensV (plainSide D) ine t u v w →
    carriesAll t = true → (t.valid v = true ∨ octetsIn v = []) → (∀ b ∈ octetsIn v, Returns P D g ⟨ine, m, k, t.item, u, b⟩) →
    t.calm g v w →
    OpensV (sideOf P D) ine t u v w
  | _, _, _, _, _, _, _, .one ine t u b rest v w hd _ hw, hc, hv, hf, hs => by
    have hv : t.valid (.octets b) = true := by simpa [octetsIn] using hv
    have hc : carries t.item = true ∧ t.item = t := by
      cases t with
      | of => simp [Ty.valid] at hv
      | _ => exact ⟨hc, rfl⟩
    have := content_enc hc.1 (hf b (by simp [octetsIn])) hd (by rw [hc.2]; exact hs)
    rw [hc.2] at this
    exact .one ine t u b rest v w hd this.1 this.2
  | _, _, _, _, _, _, _, .many ine s a t u vs ws hl, hc, _, hf, hs => by
    simp only [Ty.calm] at hs
    exact .many ine s a t u vs ws (hl.raise hc (fun b hb => hf b (List.mem_filterMap.2 ⟨_, hb, rfl⟩)) hs)
theorem OpensL.raise {P : Bool → Ty → Val → Bytes → Prop} {D : Registry} {g : Ty → Bytes → Option OVal} : ∀ {ine : Bool} {m : Ident} {k : Val} {t u : Ty} {vs : Vals} {ws : OVals},
    OpensL (plainSide D) ine t u vs ws →
    carries t = true → (∀ b, .octets b ∈ vs.toList → Returns P D g ⟨ine, m, k, t, u, b⟩) →
    (∀ p ∈ vs.toList.zip ws.toList, t.calm g p.1 p.2) → OpensL (sideOf P D) ine t u vs ws
  | _, _, _, _, _, _, _, .nil ine t u, _, _, _ => .nil ine t u
  | _, _, _, _, _, _, _, .cons ine t u b rest v w vs ws hd _ hw hl, hc, hf, hs => by
    simp only [Vals.toList, OVals.toList, List.zip_cons_cons, List.mem_cons, forall_eq_or_imp] at hf hs
    have := content_enc hc (hf b (.inl rfl)) hd hs.1
    exact .cons ine t u b rest v w vs ws hd this.1 this.2 (hl.raise hc (fun b hb => hf b (.inr hb)) hs.2)
end

/-- Where a field comes from. -/
structure From (D : Registry) (n : List Ty) (c : Content) : Prop where
  registered : D c.map c.key = some c.type
  field : ∃ s a cs f t o, Ty.seq s a cs ∈ n ∧ (f, t) ∈ cs.toList ∧ f.openType = some o ∧ o.map = c.map ∧ t.item = c.field

theorem From.mono {D : Registry} {n n' : List Ty} {c : Content} (h : From D n c) (hn : ∀ t ∈ n, t ∈ n') : From D n' c := by
  obtain ⟨h1, s, a, cs, f, t, o, h2, h3⟩ := h
  exact ⟨h1, s, a, cs, f, t, o, hn _ h2, h3⟩

mutual
theorem Ty.fields_from {D : Registry} : ∀ (t : Ty) (v : Val) (c : Content), c ∈ t.fields D v → From D t.nodes c
  | .seq s a cs, v, c, h => by
    cases v <;> simp only [Ty.fields, List.not_mem_nil] at h
    rename_i vs
    simp only [Ty.nodes]
    rcases Comps.fields_from cs vs cs vs c h with h | ⟨h1, f, t, o, h2⟩
    · exact h.mono (fun _ h => List.mem_cons_of_mem _ h)
    · exact ⟨h1, s, a, cs, f, t, o, List.mem_cons_self, h2⟩
  | .of _ _ t, v, c, h => by
    cases v <;> simp only [Ty.fields, List.not_mem_nil, List.mem_flatMap] at h
    obtain ⟨v, _, h⟩ := h
    exact (Ty.fields_from t v c h).mono (by simp [Ty.nodes]; exact fun _ h => .inr h)
  | .choice _ cs, v, c, h => by
    cases v <;> simp only [Ty.fields, List.not_mem_nil] at h
    exact (Comps.fieldsAlt_from cs _ _ c h).mono (by simp [Ty.nodes]; exact fun _ h => .inr h)
  | .prim _ _, v, c, h => by simp [Ty.fields] at h
  | .bad _, v, c, h => by simp [Ty.fields] at h
theorem Comps.fields_from {D : Registry} (ds : Comps) (us : Vals) : ∀ (cs : Comps) (vs : Vals) (c : Content),
    c ∈ Comps.fields D ds us cs vs → From D cs.nodes c ∨ (D c.map c.key = some c.type ∧
      ∃ f t o, (f, t) ∈ cs.toList ∧ f.openType = some o ∧ o.map = c.map ∧ t.item = c.field)
  | .cons f t cs, .cons v vs, c, h => by
    simp only [Comps.fields, List.mem_append] at h
    rcases h with (h | h) | h
    · exact .inl ((Ty.fields_from t v c h).mono (by simp [Comps.nodes]; exact fun _ h => .inl h))
    · refine .inr ?_
      cases ho : f.openType with
      | none => simp [ho] at h
      | some o =>
        simp only [ho] at h
        cases hg : fieldVal o.governor ds us with
        | none => simp [hg] at h
        | some g =>
          simp only [hg] at h
          cases hr : D o.map g with
          | none => simp [hr] at h
          | some u =>
            simp only [hr, List.mem_map] at h
            obtain ⟨b, _, rfl⟩ := h
            exact ⟨hr, f, t, o, by simp [Comps.toList], ho, rfl, rfl⟩
    · rcases Comps.fields_from ds us cs vs c h with h | ⟨h1, f', t', o, h2, h3⟩
      · exact .inl (h.mono (by simp [Comps.nodes]; exact fun _ h => .inr h))
      · exact .inr ⟨h1, f', t', o, by simp [Comps.toList, h2], h3⟩
  | .nil, _, c, h => by simp [Comps.fields] at h
  | .cons _ _ _, .nil, c, h => by simp [Comps.fields] at h
theorem Comps.fieldsAlt_from {D : Registry} : ∀ (cs : Comps) (i : Nat) (v : Val) (c : Content),
    c ∈ cs.fieldsAlt D i v → From D cs.nodes c
  | .cons _ t _, 0, v, c, h => by
    simp only [Comps.fieldsAlt] at h
    exact (Ty.fields_from t v c h).mono (by simp [Comps.nodes]; exact fun _ h => .inl h)
  | .cons _ _ cs, i + 1, v, c, h => by
    simp only [Comps.fieldsAlt] at h
    exact (Comps.fieldsAlt_from cs i v c h).mono (by simp [Comps.nodes]; exact fun _ h => .inr h)
  | .nil, _, _, c, h => by simp [Comps.fieldsAlt] at h
end

/-- What DER decodes to is written as it was. -/
theorem der_back {ine : Bool} {t : Ty} {v : Val} {b : Bytes} (hw : t.wf = true) (hs : t.stable = true)
    (hd : t.derOk = true) (he : Der.encodes t v b) (hv : t.valid v = true) (hc : Der.care t v) (hk : t.drop ine v = v)
    (hn : ine = true → t.vanish v = false) :
    ∃ x w, readTLV b = some (x, []) ∧ decT t x = some w ∧ enc ine t w = some b ∧ t.valid w = true ∧ t.strict x := by
  have h := encT_of t ine v b hw hs hd hv hc hk hn he
  rcases rt t ine v b hw hv h with ⟨_, h1, h2⟩ | ⟨_, x, w, h1, _, h3, _, h5⟩
  · rw [hn h1] at h2; simp at h2
  · exact ⟨x, w, by simpa using h1.read, h3, h5 hs⟩

end Asn1
end Verif
