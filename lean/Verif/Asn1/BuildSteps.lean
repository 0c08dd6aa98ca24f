import Verif.Asn1.BuildValue
import Verif.Asn1.Wf

/-!
# Objects stay objects of their type; what can be encoded is legal
-/

namespace Verif
namespace Asn1

/-! ## Objects of the type -/

theorem Comps.fits_get : ∀ (cs : Comps) (ss : Slots) (i : Nat) (f : Field) (t : Ty), cs.neutral = true → cs.whole = true →
    cs.fits ss = true → cs.get? i = some (f, t) →
    t.neutral = true ∧ t.whole = true ∧ t.fits (.initial f t) = true ∧ t.fits ((ss.get? i).getD (.initial f t)) = true
  | .nil, _, _, _, _, _, _, _, h => by simp [Comps.get?] at h
  | .cons f' t' cs, ss, 0, f, t, hn, hw, hf, h => by
    have hi := Obj.fits_initial f' t' cs hn
    simp only [Comps.get?, Option.some.injEq, Prod.mk.injEq] at h
    obtain ⟨rfl, rfl⟩ := h
    simp only [Comps.neutral, Bool.and_eq_true] at hn
    simp only [Comps.whole, Bool.and_eq_true] at hw
    simp only [Comps.fits, Bool.and_eq_true] at hf
    refine ⟨hn.1.2, hw.1, hi (Ty.ne_bad hw.1), ?_⟩
    simp only [Slots.get?]
    cases hh : ss.head with
    | none => exact hi (Ty.ne_bad hw.1)
    | some o => simpa [hh] using hf.1
  | .cons f' t' cs, ss, i + 1, f, t, hn, hw, hf, h => by
    simp only [Comps.neutral, Bool.and_eq_true] at hn
    simp only [Comps.whole, Bool.and_eq_true] at hw
    simp only [Comps.fits, Bool.and_eq_true] at hf
    exact Comps.fits_get cs ss.tail i f t hn.2 hw.2 hf.2 h

theorem Comps.fits_set : ∀ (cs : Comps) (ss : Slots) (i : Nat) (f : Field) (t : Ty) (c : Obj), cs.fits ss = true →
    cs.get? i = some (f, t) → t.fits c = true → cs.fits (ss.set c i) = true
  | .nil, _, _, _, _, _, _, _, _ => rfl
  | .cons f' t' cs, ss, 0, f, t, c, hf, h, hc => by
    simp only [Comps.get?, Option.some.injEq, Prod.mk.injEq] at h
    obtain ⟨rfl, rfl⟩ := h
    simp only [Comps.fits, Bool.and_eq_true] at hf
    have h1 : (ss.set c 0).tail = ss.tail := rfl
    have h2 : (ss.set c 0).head = some c := rfl
    simp only [Comps.fits, h1, h2, hc, hf.2, Bool.and_self]
  | .cons f' t' cs, ss, i + 1, f, t, c, hf, h, hc => by
    simp only [Comps.fits, Bool.and_eq_true] at hf
    simp only [Comps.fits, Slots.set, Slots.head_cons, Slots.tail_cons, Bool.and_eq_true]
    exact ⟨hf.1, Comps.fits_set cs ss.tail i f t c hf.2 h hc⟩

theorem Comps.fitsAlt_get : ∀ (cs : Comps) (i : Nat) (f : Field) (t : Ty) (o : Obj), cs.get? i = some (f, t) →
    cs.fitsAlt i o = t.fits o
  | .nil, _, _, _, _, h => by simp [Comps.get?] at h
  | .cons _ _ _, 0, f, t, o, h => by
    simp only [Comps.get?, Option.some.injEq, Prod.mk.injEq] at h
    obtain ⟨rfl, rfl⟩ := h
    rfl
  | .cons _ _ cs, i + 1, f, t, o, h => Comps.fitsAlt_get cs i f t o h

theorem Ty.fits_slots {s : Bool} {a : Attrs} {cs : Comps} {o : Obj} (h : (Ty.seq s a cs).fits o = true) : cs.fits o.slots = true := by
  cases o <;> simp only [Ty.fits, Bool.false_eq_true] at h
  · exact Comps.fits_nil cs
  · exact h

theorem Ty.fits_elems {s : Bool} {a : Attrs} {t : Ty} {o : Obj} (h : (Ty.of s a t).fits o = true) : ∀ c ∈ o.elems, t.fits c = true := by
  cases o <;> simp only [Ty.fits, Bool.false_eq_true] at h
  · simp [Obj.elems]
  · simpa [Obj.elems] using h

/-- If what is done at the end of the path yields an object of the type, the whole is one of its type. -/
theorem atPath_fits (g : Ty → Obj → Option Obj)
    (hg : ∀ u c c', u.neutral = true → u.whole = true → u.fits c = true → g u c = some c' → u.fits c' = true) :
    ∀ (p : List Nat) (t : Ty) (o o' : Obj), t.neutral = true → t.whole = true → t.fits o = true → atPath g t o p = some o' →
      t.fits o' = true
  | [], t, o, o', hn, hw, hf, h => hg t o o' hn hw hf (by simpa [atPath] using h)
  | i :: p, .prim _ _, o, o', _, _, _, h => by simp [atPath] at h
  | i :: p, .bad _, o, o', _, _, _, h => by simp [atPath] at h
  | i :: p, .seq s a cs, o, o', hn, hw, hf, h => by
    simp only [Ty.neutral, Bool.and_eq_true] at hn
    simp only [atPath] at h
    cases hc : cs.get? i with
    | none => simp [hc] at h
    | some ft =>
      obtain ⟨f, t⟩ := ft
      simp only [hc, Option.map_eq_some_iff] at h
      obtain ⟨c, h, rfl⟩ := h
      have hs := Ty.fits_slots hf
      obtain ⟨h1, h2, _, h3⟩ := Comps.fits_get cs o.slots i f t hn.2 hw hs hc
      exact Comps.fits_set cs o.slots i f t c hs hc (atPath_fits g hg p t _ c h1 h2 h3 h)
  | i :: p, .of s a t, o, o', hn, hw, hf, h => by
    have he := Ty.fits_elems hf
    simp only [atPath] at h
    cases hc : o.elems[i]? with
    | none =>
      simp only [hc] at h
      split at h
      · simp only [Option.map_eq_some_iff] at h
        obtain ⟨c, h, rfl⟩ := h
        have := atPath_fits g hg p t _ c hn hw (Ty.fits_fresh t (Ty.ne_bad hw)) h
        simp only [Ty.fits, Objs.toList_ofList, List.all_eq_true, List.mem_append, List.mem_singleton]
        rintro q (hq | rfl)
        · exact he q hq
        · exact this
      · simp at h
    | some q =>
      simp only [hc, Option.map_eq_some_iff] at h
      obtain ⟨c, h, rfl⟩ := h
      have := atPath_fits g hg p t q c hn hw (he q (List.mem_of_getElem? hc)) h
      simp only [Ty.fits, Objs.toList_ofList, List.all_eq_true]
      intro r hr
      rcases List.mem_or_eq_of_mem_set hr with hr | rfl
      · exact he r hr
      · exact this
  | i :: p, .choice a cs, o, o', hn, hw, hf, h => by
    simp only [atPath] at h
    cases hc : cs.get? i with
    | none => simp [hc] at h
    | some ft =>
      obtain ⟨f, t⟩ := ft
      simp only [hc, Option.map_eq_some_iff] at h
      obtain ⟨c, h, rfl⟩ := h
      obtain ⟨h1, h2, h3, _⟩ := Comps.fits_get cs .nil i f t hn hw (Comps.fits_nil cs) hc
      simp only [Ty.fits, Comps.fitsAlt_get cs i f t c hc]
      refine atPath_fits g hg p t _ c h1 h2 ?_ h
      unfold Obj.under
      split
      · rename_i j q
        split
        · rename_i hj
          subst hj
          simpa only [Ty.fits, Comps.fitsAlt_get cs j f t q hc] using hf
        · exact h3
      · exact h3

mutual
theorem touch_fits : ∀ (t : Ty) (o : Obj), t.neutral = true → t.whole = true → t.fits o = true → t.fits (touch t o) = true
  | .prim _ _, o, _, _, h => by cases o <;> simpa [touch] using h
  | .bad _, o, _, hw, _ => by simp [Ty.whole] at hw
  | .seq _ _ cs, o, hn, hw, h => by
    simp only [Ty.neutral, Bool.and_eq_true] at hn
    have := touchSlots_fits cs o.slots hn.2 hw (Ty.fits_slots h)
    cases o <;> simp only [Ty.fits, Bool.false_eq_true] at h <;> exact this
  | .of _ _ t, o, hn, hw, h => by
    cases o <;> simp only [Ty.fits, Bool.false_eq_true, List.all_eq_true] at h
    · rfl
    · simp only [touch, Ty.fits, Objs.toList_ofList, List.all_map, List.all_eq_true]
      exact fun o ho => touch_fits t o hn hw (h o ho)
  | .choice _ cs, o, hn, hw, h => by
    cases o <;> simp only [Ty.fits, Bool.false_eq_true] at h
    · rfl
    · exact touchAlt_fits cs _ _ hn hw h
theorem touchSlots_fits : ∀ (cs : Comps) (ss : Slots), cs.neutral = true → cs.whole = true → cs.fits ss = true →
    cs.fits (touchSlots cs ss) = true
  | .nil, _, _, _, _ => rfl
  | .cons f t cs, ss, hn, hw, h => by
    obtain ⟨_, _, _, h4⟩ := Comps.fits_get (.cons f t cs) ss 0 f t hn hw h rfl
    simp only [Comps.neutral, Bool.and_eq_true] at hn
    simp only [Comps.whole, Bool.and_eq_true] at hw
    simp only [Comps.fits, Bool.and_eq_true] at h
    simp only [touchSlots, Comps.fits, Slots.head, Slots.tail, Bool.and_eq_true]
    refine ⟨?_, touchSlots_fits cs ss.tail hn.2 hw.2 h.2⟩
    split
    · exact h4
    · exact touch_fits t _ hn.1.2 hw.1 h4
theorem touchAlt_fits : ∀ (cs : Comps) (i : Nat) (o : Obj), cs.neutral = true → cs.whole = true → cs.fitsAlt i o = true →
    cs.fitsAlt i (touchAlt cs i o) = true
  | .nil, _, _, _, _, h => h
  | .cons _ t _, 0, o, hn, hw, h => by
    simp only [Comps.neutral, Bool.and_eq_true] at hn
    simp only [Comps.whole, Bool.and_eq_true] at hw
    exact touch_fits t o hn.1.2 hw.1 h
  | .cons _ _ cs, i + 1, o, hn, hw, h => by
    simp only [Comps.neutral, Bool.and_eq_true] at hn
    simp only [Comps.whole, Bool.and_eq_true] at hw
    exact touchAlt_fits cs i o hn.2 hw.2 h
end

/-! ## What can be encoded is legal -/

mutual
/-- The octets given to every ANY without a tag are one element, and the fraction of every time is written as it is. -/
def Ty.faithful : Ty → Val → Bool
  | .prim .any a, .octets b => !a.tags.isEmpty || oneElement b
  | .prim .utcTime _, .str s => plainFraction s
  | .prim .generalizedTime _, .str s => plainFraction s
  | .seq _ _ cs, .record vs => cs.faithful vs
  | .of _ _ t, .list vs => vs.every t.faithful
  | .choice _ cs, .alt i v => cs.faithfulAlt i v
  | _, _ => true
def Comps.faithful : Comps → Vals → Bool
  | .cons _ t cs, .cons v vs => t.faithful v && cs.faithful vs
  | _, _ => true
def Comps.faithfulAlt : Comps → Nat → Val → Bool
  | .cons _ t _, 0, v => t.faithful v
  | .cons _ _ cs, i + 1, v => cs.faithfulAlt i v
  | .nil, _, _ => true
end

theorem encStr_repertoire (k : CharKind) : ∀ (s : List Char) (b : Bytes), encStr k s = some b → s.all (inRepertoire k) = true
  | [], _, _ => rfl
  | c :: s, b, h => by
    simp only [encStr] at h
    cases hc : encChar k c <;> simp only [hc, reduceCtorEq] at h
    cases hs : encStr k s <;> simp only [hs, reduceCtorEq] at h
    simp only [List.all_cons, encStr_repertoire k s _ hs, Bool.and_true]
    cases k <;> simp only [encChar, inRepertoire] at hc ⊢ <;> split at hc <;> simp_all

theorem legalTime_of_ok (lo hi : Nat) (s : List Char) (b : Bytes) (h : timeOk lo hi s = true) (he : encStr .ascii (trimTime s) = some b)
    (hp : plainFraction s = true) : legalTime (lo + 1) (hi - 1) s = true := by
  rw [trimTime_plain s hp] at he
  have hr := encStr_repertoire _ _ _ he
  simp only [timeOk, trimTime_plain s hp, Bool.and_eq_true, decide_eq_true_eq, List.all_eq_true, bne_iff_ne] at h
  simp only [List.all_eq_true, inRepertoire, decide_eq_true_eq] at hr
  simp only [legalTime, Bool.and_eq_true, decide_eq_true_eq, List.all_eq_true]
  refine ⟨⟨⟨⟨by omega, by omega⟩, h.1.1.2⟩, fun c hc => ⟨hr c hc, ?_⟩⟩, hp⟩
  have := h.1.1.1 c hc
  simp [this]

theorem primLegal_of_enc (k : Prim) (a : Attrs) (v : Val) (b : Bytes) (hk : primKind k v = true) (h : encPrim k v = some b)
    (hf : Ty.faithful (.prim k a) v = true) : primLegal k v = true := by
  cases k <;> cases v <;> simp only [primKind, Bool.false_eq_true] at hk <;> simp only [primLegal]
  case boolean.int => exact hk
  case oid.oid a =>
    simp only [encPrim, encOid, Option.map_eq_some_iff] at h
    obtain ⟨m, hm, _⟩ := h
    unfold mergeArcs at hm
    split at hm
    · split at hm <;> simp at hm
      simp; omega
    · split at hm <;> simp at hm
      simp; omega
    · simp
    · simp at hm
  case str.str k s => exact encStr_repertoire k s b h
  case utcTime.str s =>
    simp only [encPrim] at h
    split at h
    · rename_i ht; exact legalTime_of_ok 10 14 s b ht h hf
    · simp at h
  case generalizedTime.str s =>
    simp only [encPrim] at h
    split at h
    · rename_i ht; exact legalTime_of_ok 12 20 s b ht h hf
    · simp at h

theorem mapOpt_mem_right {α β : Type} {f : α → Option β} : ∀ {l : List α} {ys : List β}, mapOpt f l = some ys →
    ∀ y ∈ ys, ∃ a ∈ l, f a = some y
  | [], ys, h, y, hy => by simp only [mapOpt, Option.some.injEq] at h; subst h; simp at hy
  | b :: l, ys, h, y, hy => by
    simp only [mapOpt] at h
    cases hb : f b <;> simp only [hb, reduceCtorEq] at h
    cases hl : mapOpt f l <;> simp only [hl, reduceCtorEq, Option.some.injEq] at h
    subst h
    rcases List.mem_cons.1 hy with rfl | hy
    · exact ⟨b, by simp, hb⟩
    · obtain ⟨a, ha, h⟩ := mapOpt_mem_right hl y hy
      exact ⟨a, by simp [ha], h⟩

mutual
/-- If the value of an object can be encoded, it is legal. -/
theorem valid_of_enc : ∀ (t : Ty) (ine : Bool) (o : Obj) (v : Val) (b : Bytes), t.neutral = true → t.whole = true →
    t.fits o = true → t.value o = some v → enc ine t v = some b → t.faithful v = true → t.valid v = true
  | .prim k a, ine, o, v, b, _, _, hf, hv, he, ha => by
    cases o <;> simp only [Ty.value, reduceCtorEq, Option.some.injEq] at hv
    subst hv
    rename_i v
    simp only [Ty.fits, Bool.and_eq_true] at hf
    simp only [enc] at he
    cases hp : encPrim k v <;> simp only [hp, Option.bind_none, reduceCtorEq] at he
    simp only [Ty.valid, primLegal_of_enc k _ _ _ hf.1 hp ha, hf.2, Bool.and_self, Bool.true_and]
    split
    · simp_all [Ty.faithful]
    · rfl
  | .bad _, _, _, _, _, _, hw, _, _, _, _ => by simp [Ty.whole] at hw
  | .seq s a cs, ine, o, v, b, hn, hw, hf, hv, he, ha => by
    simp only [Ty.neutral, Bool.and_eq_true] at hn
    have hs := Ty.fits_slots hf
    have hv' : ∃ vs, v = .record vs ∧ cs.values o.slots = some vs := by
      cases o <;> simp only [Ty.value, reduceCtorEq] at hv
      · split at hv
        · simp at hv
        · simp only [Option.map_eq_some_iff] at hv
          obtain ⟨vs, h, rfl⟩ := hv
          exact ⟨vs, rfl, h⟩
      · simp only [Option.map_eq_some_iff] at hv
        obtain ⟨vs, h, rfl⟩ := hv
        exact ⟨vs, rfl, h⟩
    obtain ⟨vs, rfl, hv'⟩ := hv'
    have hok := Constraint.ok_of_granted (Comps.firm_present cs o.slots vs hs hv') (presentNames_length cs vs)
      (presentNames cs vs) _ hn.1
    simp only [enc] at he
    rw [if_pos hok] at he
    cases hp : encComps cs vs <;> simp only [hp, reduceCtorEq] at he
    simp only [Ty.valid, Bool.and_eq_true]
    exact ⟨valid_of_encComps cs o.slots vs _ hn.2 hw hs hv' hp ha, hok⟩
  | .of s a t, ine, o, v, b, hn, hw, hf, hv, he, ha => by
    have hel := Ty.fits_elems hf
    have hv' : ∃ vs, v = .list (.ofList vs) ∧ mapOpt t.value o.elems = some vs := by
      cases o <;> simp only [Ty.value, reduceCtorEq, Option.map_eq_some_iff] at hv
      case blank =>
        split at hv
        · simp at hv
        · simp only [Option.some.injEq] at hv
          exact ⟨[], hv.symm, rfl⟩
      case list os =>
        obtain ⟨vs, h, rfl⟩ := hv
        exact ⟨vs, rfl, h⟩
    obtain ⟨vs, rfl, hv'⟩ := hv'
    rw [enc_of_eq] at he
    split at he
    rotate_left
    · simp at he
    rename_i hc
    simp only [Vals.toList_ofList'] at he
    cases hp : mapOpt (enc ine t) vs <;> simp only [hp, reduceCtorEq] at he
    simp only [Ty.valid, Bool.and_eq_true, hc, and_true, Vals.every_all, Vals.toList_ofList', List.all_eq_true]
    simp only [Ty.faithful, Vals.every_all, Vals.toList_ofList', List.all_eq_true] at ha
    intro w hw'
    obtain ⟨q, hq, hqv⟩ := mapOpt_mem_right hv' w hw'
    obtain ⟨y, hy⟩ := mapOpt_some_mem hp w hw'
    exact valid_of_enc t ine q w y hn hw (hel q hq) hqv hy (ha w hw')
  | .choice a cs, ine, o, v, b, hn, hw, hf, hv, he, ha => by
    cases o <;> simp only [Ty.value, reduceCtorEq, Option.map_eq_some_iff] at hv
    obtain ⟨w, hv, rfl⟩ := hv
    rename_i i o
    simp only [enc] at he
    cases hp : encAlt ine cs i w <;> simp only [hp, reduceCtorEq] at he
    exact valid_of_encAlt cs ine i o w _ hn hw hf hv hp ha
theorem valid_of_encComps : ∀ (cs : Comps) (ss : Slots) (vs : Vals) (ps : List (TagSet × Bytes)), cs.neutral = true →
    cs.whole = true → cs.fits ss = true → cs.values ss = some vs → encComps cs vs = some ps → cs.faithful vs = true → cs.valid vs = true
  | .nil, _, vs, _, _, _, _, hv, _, _ => by
    simp only [Comps.values, Option.some.injEq] at hv
    subst hv
    rfl
  | .cons f t cs, ss, vs, ps, hn, hw, hf, hv, he, ha => by
    obtain ⟨_, _, _, hfst⟩ := Comps.fits_get (.cons f t cs) ss 0 f t hn hw hf rfl
    simp only [Comps.neutral, Bool.and_eq_true] at hn
    simp only [Comps.whole, Bool.and_eq_true] at hw
    simp only [Comps.fits, Bool.and_eq_true] at hf
    simp only [Comps.values] at hv
    split at hv
    rotate_left
    · simp at hv
    rename_i v vs' hv1 hv2
    simp only [Option.some.injEq] at hv
    subst hv
    simp only [Comps.faithful, Bool.and_eq_true] at ha
    simp only [Comps.valid, Bool.and_eq_true]
    by_cases hab : v = .absent
    · rw [encComps_absent hab] at he
      cases hp : encComps cs vs' <;> simp only [hp, Option.bind_none, Option.bind_some, reduceCtorEq] at he
      refine ⟨?_, valid_of_encComps cs ss.tail vs' _ hn.2 hw.2 hf.2 hv2 hp ha.2⟩
      split at hv1
      · rename_i hl
        cases hm : f.mode with
        | req => simp [hm, Mode.lax] at hl
        | opt => simp [hab]
        | dflt d => simp only [hm, Mode.lax, Bool.and_eq_true, beq_iff_eq] at hl; simp [hab, hl.1]
      · exact absurd hab (Ty.value_ne_absent t _ v hfst hv1)
    · rw [encComps_present hab] at he
      cases hp : encComps cs vs' <;> simp only [hp, Option.bind_none, Option.bind_some, reduceCtorEq] at he
      refine ⟨?_, valid_of_encComps cs ss.tail vs' _ hn.2 hw.2 hf.2 hv2 hp ha.2⟩
      have hv3 : t.value ((ss.get? 0).getD (.initial f t)) = some v := by
        split at hv1
        · simp only [Option.some.injEq] at hv1; exact absurd hv1.symm hab
        · exact hv1
      by_cases hd : f.mode = .dflt v
      · simp [hd]
      · rw [if_neg hd] at he
        cases hb : enc f.mode.isOpt t v <;> simp only [hb, Option.map_none, reduceCtorEq] at he
        have := valid_of_enc t _ _ v _ hn.1.2 hw.1 hfst hv3 hb ha.1
        cases hm : f.mode <;> simp [this]
theorem valid_of_encAlt : ∀ (cs : Comps) (ine : Bool) (i : Nat) (o : Obj) (v : Val) (b : Bytes), cs.neutral = true →
    cs.whole = true → cs.fitsAlt i o = true → cs.valueAlt i o = some v → encAlt ine cs i v = some b → cs.faithfulAlt i v = true →
    cs.validAlt i v = true
  | .nil, _, _, _, _, _, _, _, h, _, _, _ => by simp [Comps.fitsAlt] at h
  | .cons _ t _, ine, 0, o, v, b, hn, hw, hf, hv, he, ha => by
    simp only [Comps.neutral, Bool.and_eq_true] at hn
    simp only [Comps.whole, Bool.and_eq_true] at hw
    exact valid_of_enc t ine o v b hn.1.2 hw.1 hf hv he ha
  | .cons _ _ cs, ine, i + 1, o, v, b, hn, hw, hf, hv, he, ha => by
    simp only [Comps.neutral, Bool.and_eq_true] at hn
    simp only [Comps.whole, Bool.and_eq_true] at hw
    exact valid_of_encAlt cs ine i o v b hn.2 hw.2 hf hv he ha
end

end Asn1
end Verif
