import Verif.Asn1.BerOpen
import Verif.Asn1.OpenSound
import Verif.Spec.BerOpen

/-!
# Decoding BER with open types, against its specification
-/

namespace Verif
namespace Asn1
namespace BerOpen

theorem eoo_iff {w : OVal} : eoo w = true ↔ ∃ b, w = .leaf (.octets b) ∧ b.take 2 = [0, 0] := by
  constructor
  · intro h
    unfold eoo at h
    split at h
    · rename_i b
      exact ⟨b, rfl, by simpa using h⟩
    · simp at h
  · rintro ⟨b, rfl, h⟩
    simp [eoo, h]

/-- A leaf is the value itself. -/
theorem Opens.leaf_eq {S : Registry} {t : Ty} {v g : Val} (h : Opens S t v (.leaf g)) : v = g := by
  cases h; rfl

/-- One component before its open type is looked at. -/
def PreF (D : Registry) (fld : Field) (t : Ty) (v : Val) (w : OVal) : Prop :=
  (fld.mode.missing = some v ∧ w = .leaf v) ∨ Opens D t v w

def PreC (D : Registry) : Comps → Vals → OVals → Prop
  | .nil, .nil, .nil => True
  | .cons f t cs, .cons v vs, .cons w ws => PreF D f t v w ∧ PreC D cs vs ws
  | _, _, _ => False

theorem PreF.leaf {D : Registry} {f : Field} {t : Ty} {v g : Val} (h : PreF D f t v (.leaf g)) : v = g := by
  rcases h with ⟨_, h⟩ | h
  · cases h; rfl
  · exact h.leaf_eq

theorem PreF.absent {D : Registry} {f : Field} {t : Ty} {v : Val} {w : OVal} (h : PreF D f t v w) :
    w.isAbsent = true ↔ v = .absent := by
  constructor
  · intro hw
    cases w <;> simp [OVal.isAbsent] at hw
    rename_i g
    cases g <;> simp at hw
    exact h.leaf
  · rintro rfl
    rcases h with ⟨_, h⟩ | h
    · subst h; rfl
    · cases h; rfl

theorem PreC.names {D : Registry} : ∀ {cs : Comps} {vs : Vals} {ws : OVals}, PreC D cs vs ws →
    opresentNames cs ws = presentNames cs vs
  | .nil, .nil, .nil, _ => rfl
  | .cons f t cs, .cons v vs, .cons w ws, h => by
    simp only [opresentNames, presentNames, PreC.names h.2]
    by_cases hv : v = .absent
    · rw [if_pos hv, if_pos (h.1.absent.2 hv)]
    · rw [if_neg hv, if_neg (fun hw => hv (h.1.absent.1 hw))]
  | .nil, .cons _ _, _, h => h.elim
  | .nil, .nil, .cons _ _, h => h.elim
  | .cons _ _ _, .nil, _, h => h.elim
  | .cons _ _ _, .cons _ _, .nil, h => h.elim

theorem PreC.governor {D : Registry} (name : String) (g : Val) : ∀ {cs : Comps} {vs : Vals} {ws : OVals}, PreC D cs vs ws →
    governor name cs ws = some g → fieldVal name cs vs = some g
  | .nil, .nil, .nil, _, hg => by simp [Asn1.governor] at hg
  | .cons f t cs, .cons v vs, .cons w ws, h, hg => by
    simp only [Asn1.governor] at hg
    simp only [fieldVal]
    split at hg
    · rename_i hn
      rw [if_pos hn]
      split at hg
      · rename_i g'
        split at hg
        · simp at hg
        · simp at hg; subst hg; rw [h.1.leaf]
      · simp at hg
    · rename_i hn
      rw [if_neg hn]
      exact PreC.governor name g h.2 hg
  | .nil, .cons _ _, _, h, _ => h.elim
  | .nil, .nil, .cons _ _, h, _ => h.elim
  | .cons _ _ _, .nil, _, h, _ => h.elim
  | .cons _ _ _, .cons _ _, .nil, h, _ => h.elim

/-- The decoder of the contents of open fields is right. -/
def Right (D : Registry) (f : Ty → Bytes → Option OVal) : Prop :=
  ∀ u c w, f u c = some w → ∃ v rest, berDecode u c = some (v, rest) ∧ Opens D u v w

theorem openVal_sound {D : Registry} {f : Ty → Bytes → Option OVal} (hf : Right D f) {fld : Field} {t u : Ty} {v : Val} {w w' : OVal}
    (h : PreF D fld t v w) (ho : openVal f u w = some w') : OpensV D t u v w' := by
  cases w with
  | leaf g =>
    have hv := h.leaf
    subst hv
    cases v <;> simp [openVal, openOne] at ho
    rename_i b
    obtain ⟨o, h1, h2⟩ := ho
    subst h2
    obtain ⟨v', rest, h3, h4⟩ := hf u b o h1
    exact .one t u b rest v' o h3 h4
  | list ws =>
    rcases h with ⟨_, h⟩ | h
    · cases h
    · have h := h
      cases h with
      | of s a t vs _ h =>
        simp only [openVal, Option.map_eq_some_iff] at ho
        obtain ⟨l, h1, h2⟩ := ho
        subst h2
        refine .many s a t u vs _ ?_
        have key : ∀ (ws : OVals) (vs : Vals) (l : List OVal), OpensE D t vs ws →
            mapOpt (openOne f u) ws.toList = some l → OpensL D t u vs (.ofList l) := by
          intro ws
          induction ws using OVals.rec (motive_1 := fun _ => True) with
          | nil =>
            intro vs l he hl
            cases he
            simp [OVals.toList, mapOpt] at hl
            subst hl
            exact .nil t u
          | cons w ws _ ih =>
            intro vs l he hl
            cases he with
            | cons _ v _ vs _ h1 h2 =>
            simp only [OVals.toList, mapOpt] at hl
            split at hl
            · rename_i y ys hy hys
              simp at hl; subst hl
              cases w <;> simp [openOne] at hy
              rename_i g
              have := h1.leaf_eq
              subst this
              cases v <;> simp at hy
              rename_i b
              obtain ⟨o, k1, k2⟩ := hy
              subst k2
              obtain ⟨v', rest, h3, h4⟩ := hf u b o k1
              exact .cons t u b rest v' o vs _ h3 h4 (ih vs ys h2 hys)
            · simp at hl
          | _ => trivial
        exact key ws vs l h h1
  | record ws => simp [openVal, openOne] at ho
  | alt i w => simp [openVal, openOne] at ho
  | opened u' w => simp [openVal, openOne] at ho

theorem preF_noOpen {D : Registry} {ds : Comps} {us : Vals} {fld : Field} {t : Ty} {v : Val} {w : OVal} (h : PreF D fld t v w)
    (ho : fld.openType = none) : OpensF D ds us fld t v w := by
  rcases h with ⟨h1, h2⟩ | h
  · subst h2
    cases hm : fld.mode with
    | req => simp [hm, Mode.missing] at h1
    | opt => simp [hm, Mode.missing] at h1; subst h1; exact .absent ds us fld t hm
    | dflt d =>
      simp [hm, Mode.missing] at h1; subst h1
      exact .dflt ds us fld t d hm (fun o g h => by simp [ho] at h)
  · exact .plain ds us fld t v w ho h

theorem preC_noOpen {D : Registry} (ds : Comps) (us : Vals) : ∀ {cs : Comps} {vs : Vals} {ws : OVals}, PreC D cs vs ws →
    cs.noOpen = true → OpensC D ds us cs vs ws
  | .nil, .nil, .nil, _, _ => .nil ds us
  | .cons f t cs, .cons v vs, .cons w ws, h, ho => by
    simp only [Comps.noOpen, Bool.and_eq_true, Option.isNone_iff_eq_none] at ho
    exact .cons ds us f t cs v vs w ws (preF_noOpen h.1 ho.1) (preC_noOpen ds us h.2 ho.2)
  | .nil, .cons _ _, _, h, _ => h.elim
  | .nil, .nil, .cons _ _, h, _ => h.elim
  | .cons _ _ _, .nil, _, h, _ => h.elim
  | .cons _ _ _, .cons _ _, .nil, h, _ => h.elim

theorem openAll_sound {D : Registry} {f : Ty → Bytes → Option OVal} (hf : Right D f) {ds : Comps} {us : Vals} {xs : OVals}
    (hd : PreC D ds us xs) : ∀ {cs : Comps} {vs : Vals} {ws ws' : OVals}, PreC D cs vs ws →
    openAll D f ind ds xs cs ws = some ws' → OpensC D ds us cs vs ws'
  | .nil, .nil, .nil, _, _, h => by
    simp [openAll] at h; subst h; exact .nil ds us
  | .cons fld t cs, .cons v vs, .cons w ws, ws', hp, h => by
    simp only [openAll] at h
    split at h
    · rename_i w' ws'' h1 h2
      simp at h; subst h
      refine .cons ds us fld t cs v vs w' ws'' ?_ (openAll_sound hf hd hp.2 h2)
      simp only [openField] at h1
      cases ho : fld.openType with
      | none => simp [ho] at h1; subst h1; exact preF_noOpen hp.1 ho
      | some o =>
        simp only [ho] at h1
        split at h1
        · rename_i ha
          simp at h1; subst h1
          simp only [Bool.and_eq_true] at ha
          have hv := hp.1.absent.1 ha.2
          have hm : fld.mode = .opt := by cases hm : fld.mode <;> simp_all [Mode.isOpt]
          have hw : w = .leaf .absent := by
            have := ha.2
            cases w <;> simp [OVal.isAbsent] at this
            rename_i g; cases g <;> simp at this; rfl
          rw [hv, hw]; exact .absent ds us fld t hm
        · rename_i hna
          split at h1
          · simp at h1
          · rename_i g hg
            have hg := PreC.governor _ g hd hg
            split at h1
            · rename_i hD
              simp at h1; subst h1
              rcases hp.1 with ⟨h3, h4⟩ | h3
              · subst h4
                cases hm : fld.mode with
                | req => simp [hm, Mode.missing] at h3
                | opt =>
                  simp [hm, Mode.missing] at h3; subst h3
                  exact .absent ds us fld t hm
                | dflt d =>
                  simp [hm, Mode.missing] at h3; subst h3
                  refine .dflt ds us fld t d hm (fun o' g' h5 h6 => ?_)
                  rw [ho] at h5; cases h5
                  rw [hg] at h6; cases h6
                  exact hD
              · exact .unknown ds us fld t v w o g ho hg hD h3
            · rename_i u hD
              split at h1
              · rename_i he
                simp only [Option.some.injEq] at h1
                subst h1
                simp only [Bool.and_eq_true] at he
                have he := he.2
                obtain ⟨b, rfl, hb⟩ := eoo_iff.1 he
                rw [hp.1.leaf]
                exact .marker ds us fld t b o g ho hg hb
              · exact .known ds us fld t v w' o g u ho hg hD (openVal_sound hf hp.1 h1)
    · simp at h
  | .nil, .cons _ _, _, _, h, _ => h.elim
  | .nil, .nil, .cons _ _, _, h, _ => h.elim
  | .cons _ _ _, .nil, _, _, h, _ => h.elim
  | .cons _ _ _, .cons _ _, .nil, _, h, _ => h.elim

theorem mapOpt_sound {D : Registry} {t : Ty} {p : Elt → Option OVal}
    (hp : ∀ x w, p x = some w → ∃ v, bdecT t x = some v ∧ Opens D t v w) :
    ∀ (xs : List Elt) (ws : List OVal), mapOpt p xs = some ws →
      ∃ vs, mapOpt (bdecT t) xs = some vs ∧ all2 (fun v w => Opens D t v w) vs ws
  | [], ws, h => by
    simp [mapOpt] at h; subst h
    exact ⟨[], by simp [mapOpt], trivial⟩
  | x :: xs, ws, h => by
    simp only [mapOpt] at h
    split at h
    · rename_i y ys h1 h2
      simp at h; subst h
      obtain ⟨v, h3, h4⟩ := hp x y h1
      obtain ⟨vs, h5, h6⟩ := mapOpt_sound hp xs ys h2
      exact ⟨v :: vs, by simp [mapOpt, h3, h5], h4, h6⟩
    · simp at h

theorem opensE_of {S : Registry} {t : Ty} : ∀ (vs : List Val) (ws : List OVal), all2 (Opens S t) vs ws →
    OpensE S t (.ofList vs) (.ofList ws)
  | [], [], _ => .nil t
  | v :: vs, w :: ws, h => .cons t v w _ _ h.1 (opensE_of vs ws h.2)
  | [], _ :: _, h => h.elim
  | _ :: _, [], h => h.elim

mutual
theorem odecT_sound {D : Registry} {f : Ty → Bytes → Option OVal} (hf : Right D f) : ∀ (t : Ty) (x : Elt) (w : OVal),
    odecT D f t x = some w → ∃ v, bdecT t x = some v ∧ Opens D t v w
  | .prim k a, x, w, h => by
    simp only [odecT, Option.map_eq_some_iff] at h
    obtain ⟨v, h1, h2⟩ := h
    subst h2
    exact ⟨v, by simp [bdecT, h1], .prim k a v⟩
  | .seq s a cs, x, w, h => by
    simp only [odecT] at h
    split at h
    · simp at h
    · rename_i xs hx
      split at h
      · simp at h
      · rename_i ws hws
        have hpre : ∃ vs, (if s then (if xs.all (fun x => cs.matches x.tlv) then bdecSet cs xs else none) else bdecComps cs xs) = some vs ∧
            PreC D cs vs ws := by
          cases s with
          | false => simpa using odecComps_sound hf cs xs ws (by simpa using hws)
          | true =>
            simp only [if_true] at hws ⊢
            split at hws
            · rename_i hall; rw [if_pos hall]; exact odecSet_sound hf cs xs ws hws
            · simp at hws
        obtain ⟨vs, h1, h2⟩ := hpre
        refine ⟨.record vs, ?_, ?_⟩
        · simp only [bdecT, hx, h1]
          cases hno : cs.noOpen with
          | false => rfl
          | true =>
            rw [hno, if_pos rfl] at h
            split at h
            · rename_i hspec
              rw [PreC.names h2] at hspec
              simp [hspec]
            · simp at h
        · cases hno : cs.noOpen with
          | true =>
            rw [hno, if_pos rfl] at h
            split at h
            · simp at h; subst h
              exact .seq s a cs vs ws (preC_noOpen cs vs h2 hno)
            · simp at h
          | false =>
            rw [hno, if_neg (by simp), Option.map_eq_some_iff] at h
            obtain ⟨ws', h3, h4⟩ := h
            subst h4
            exact .seq s a cs vs ws' (openAll_sound hf h2 h2 h3)
  | .of s a t, x, w, h => by
    simp only [odecT] at h
    split at h
    · simp at h
    · rename_i xs hx
      split at h
      · simp at h
      · rename_i ws hws
        simp at h; subst h
        obtain ⟨vs, h1, h2⟩ := mapOpt_sound (odecT_sound hf t) xs ws hws
        exact ⟨.list (.ofList vs), by simp [bdecT, hx, h1],
          .of s a t _ _ (opensE_of vs ws h2)⟩
  | .choice a cs, x, w, h => by
    simp only [odecT] at h
    split at h
    · rename_i ht
      obtain ⟨v, h1, h2⟩ := odecAlt_sound hf cs 0 x w h
      refine ⟨v, by simp [bdecT, ht, h1], ?_⟩
      obtain ⟨i, g, u, v', w', e1, e2, e3, e4⟩ := h2
      subst e1; subst e2
      exact .choice a cs (0 + i) g u v' w' (by simpa using e3) e4
    · rename_i ht
      split at h
      · simp at h
      · rename_i y hy
        split at h
        · simp at h
        · rename_i z hz
          obtain ⟨v, h1, h2⟩ := odecAlt_sound hf cs 0 z w h
          refine ⟨v, ?_, ?_⟩
          · rw [ht] at hy
            simp [bdecT, ht]
            simp at hy
            simp [hy, hz, h1]
          · obtain ⟨i, g, u, v', w', e1, e2, e3, e4⟩ := h2
            subst e1; subst e2
            exact .choice a cs (0 + i) g u v' w' (by simpa using e3) e4
  | .bad _, _, _, h => by simp [odecT] at h
theorem odecComps_sound {D : Registry} {f : Ty → Bytes → Option OVal} (hf : Right D f) : ∀ (cs : Comps) (xs : List Elt)
    (ws : OVals), odecComps D f cs xs = some ws → ∃ vs, bdecComps cs xs = some vs ∧ PreC D cs vs ws
  | .nil, [], ws, h => by simp [odecComps] at h; subst h; exact ⟨.nil, by simp [bdecComps], trivial⟩
  | .nil, _ :: _, _, h => by simp [odecComps] at h
  | .cons fld t cs, [], ws, h => by
    simp only [odecComps] at h
    split at h
    · rename_i v ws' h1 h2
      simp at h; subst h
      obtain ⟨vs, h3, h4⟩ := odecComps_sound hf cs [] ws' h2
      exact ⟨.cons v vs, by simp [bdecComps, h1, h3], Or.inl ⟨h1, rfl⟩, h4⟩
    · simp at h
  | .cons fld t cs, x :: xs, ws, h => by
    simp only [odecComps] at h
    split at h
    · rename_i hc
      split at h
      · rename_i w ws' h1 h2
        simp at h; subst h
        obtain ⟨vs, h3, h4⟩ := odecComps_sound hf cs xs ws' h2
        obtain ⟨v, h5, h6⟩ := odecT_sound hf t x w h1
        exact ⟨.cons v vs, by simp only [bdecComps]; rw [if_pos hc]; simp [h5, h3], Or.inr h6, h4⟩
      · simp at h
    · rename_i hc
      split at h
      · rename_i v ws' h1 h2
        simp at h; subst h
        obtain ⟨vs, h3, h4⟩ := odecComps_sound hf cs (x :: xs) ws' h2
        exact ⟨.cons v vs, by simp only [bdecComps]; rw [if_neg hc]; simp [h1, h3], Or.inl ⟨h1, rfl⟩, h4⟩
      · simp at h
theorem odecSet_sound {D : Registry} {f : Ty → Bytes → Option OVal} (hf : Right D f) : ∀ (cs : Comps) (xs : List Elt)
    (ws : OVals), odecSet D f cs xs = some ws → ∃ vs, bdecSet cs xs = some vs ∧ PreC D cs vs ws
  | .nil, xs, ws, h => by simp [odecSet] at h; subst h; exact ⟨.nil, by simp [bdecSet], trivial⟩
  | .cons fld t cs, xs, ws, h => by
    simp only [odecSet] at h
    split at h
    · rename_i us ws' h1 h2
      obtain ⟨vs, h3, h4⟩ := odecSet_sound hf cs xs ws' h2
      obtain ⟨us', h5, h6⟩ := mapOpt_sound (odecT_sound hf t) _ us h1
      split at h
      · rename_i w hw
        simp at h; subst h
        obtain ⟨v, h7, h8⟩ := all2_getLast us' us w h6 hw
        exact ⟨.cons v vs, by simp [bdecSet, h5, h3, h7], Or.inr h8, h4⟩
      · rename_i hw
        have hn : us' = [] := by
          rw [List.getLast?_eq_none_iff] at hw
          subst hw
          cases us' with
          | nil => rfl
          | cons => exact h6.elim
        split at h
        · rename_i v hv
          simp at h; subst h
          exact ⟨.cons v vs, by simp [bdecSet, h5, h3, hn, hv], Or.inl ⟨hv, rfl⟩, h4⟩
        · simp at h
    · simp at h
theorem odecAlt_sound {D : Registry} {f : Ty → Bytes → Option OVal} (hf : Right D f) : ∀ (cs : Comps) (k : Nat) (x : Elt)
    (w : OVal), odecAlt D f cs k x = some w → ∃ v, bdecAlt cs k x = some v ∧
      ∃ i g t v' w', v = .alt (k + i) v' ∧ w = .alt (k + i) w' ∧ cs.get? i = some (g, t) ∧
        Opens D t v' w'
  | .nil, _, _, _, h => by simp [odecAlt] at h
  | .cons fld t cs, k, x, w, h => by
    simp only [odecAlt] at h
    split at h
    · rename_i hm
      split at h
      · rename_i w' h1
        simp at h; subst h
        obtain ⟨v, h2, h3⟩ := odecT_sound hf t x w' h1
        exact ⟨.alt k v, by simp [bdecAlt, hm, h2], 0, fld, t, v, w', rfl, rfl, rfl, h3⟩
      · simp at h
    · rename_i hm
      obtain ⟨v, h1, i, g, u, v', w', e1, e2, e3, e4⟩ := odecAlt_sound hf cs (k + 1) x w h
      have hk : k + 1 + i = k + (i + 1) := by omega
      refine ⟨v, by simp only [bdecAlt]; rw [if_neg hm]; exact h1, i + 1, g, u, v', w', ?_, ?_, ?_, e4⟩
      · rw [e1, hk]
      · rw [e2, hk]
      · simpa [Comps.get?] using e3
end

/-- What decoding with open types returns is the plainly decoded value with its open type fields
opened; it reads the same octets. -/
theorem odecode_sound (D : Registry) : ∀ (n : Nat) (t : Ty) (b : Bytes) (w : OVal) (r : Bytes),
    odecode D n t b = some (w, r) → ∃ v, berDecode t b = some (v, r) ∧ Opens D t v w
  | 0, _, _, _, _, h => by simp [odecode] at h
  | n + 1, t, b, w, r, h => by
    have hf : Right D (fun u c => (odecode D n u c).map Prod.fst) := by
      intro u c w h
      simp only [Option.map_eq_some_iff] at h
      obtain ⟨⟨w', r'⟩, h1, h2⟩ := h
      simp at h2; subst h2
      obtain ⟨v, h3, h4⟩ := odecode_sound D n u c w' r' h1
      exact ⟨v, r', h3, h4⟩
    simp only [odecode] at h
    split at h
    · simp at h
    · rename_i x rest hx
      split at h
      · simp at h
      · rename_i w' hw
        simp at h
        obtain ⟨rfl, rfl⟩ := h
        obtain ⟨v, h1, h2⟩ := odecT_sound hf t x w' hw
        exact ⟨v, by simp [berDecode, hx, h1], h2⟩

end BerOpen
end Asn1
end Verif
