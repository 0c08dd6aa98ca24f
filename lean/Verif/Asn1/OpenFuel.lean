import Verif.Asn1.OpenSound
import Verif.Asn1.TlvLemmas

/-!
# The nesting of open types is bounded by the input

`odecode` takes a bound on how deep open types may be nested in each other.  Any bound above the
length of the input gives the same result, so the bound is not a restriction.
-/

namespace Verif
namespace Asn1

/-! ## More fuel does not change a result -/

/-- `g` succeeds wherever `f` does, with the same result. -/
def Extends (f g : Ty → Bytes → Option OVal) : Prop := ∀ u c w, f u c = some w → g u c = some w

theorem mapOpt_mono {α β : Type} {p q : α → Option β} (h : ∀ x y, p x = some y → q x = some y) :
    ∀ (xs : List α) (ys : List β), mapOpt p xs = some ys → mapOpt q xs = some ys
  | [], ys, hy => by simpa [mapOpt] using hy
  | x :: xs, ys, hy => by
    simp only [mapOpt] at hy
    split at hy
    · rename_i y ys' h1 h2
      simp at hy; subst hy
      simp [mapOpt, h x y h1, mapOpt_mono h xs ys' h2]
    · simp at hy

theorem openOne_mono {f g : Ty → Bytes → Option OVal} (h : Extends f g) (u : Ty) (v w : OVal)
    (hw : openOne f u v = some w) : openOne g u v = some w := by
  unfold openOne at hw ⊢
  split at hw
  · rename_i b
    simp only [Option.map_eq_some_iff] at hw ⊢
    obtain ⟨o, h1, h2⟩ := hw
    exact ⟨o, h u b o h1, h2⟩
  · simp at hw

theorem openVal_mono {f g : Ty → Bytes → Option OVal} (h : Extends f g) (u : Ty) (v w : OVal)
    (hw : openVal f u v = some w) : openVal g u v = some w := by
  cases v with
  | list vs =>
    simp only [openVal, Option.map_eq_some_iff] at hw ⊢
    obtain ⟨o, h1, h2⟩ := hw
    exact ⟨o, mapOpt_mono (openOne_mono h u) _ _ h1, h2⟩
  | leaf v => exact openOne_mono h u (.leaf v) w hw
  | _ => simp [openVal, openOne] at hw

theorem openField_mono {D : Registry} {f g : Ty → Bytes → Option OVal} (h : Extends f g) (ds : Comps) (us : OVals) (fld : Field)
    (v w : OVal) (h1 : openField D f ds us fld v = some w) : openField D g ds us fld v = some w := by
  simp only [openField] at h1 ⊢
  split
  · rename_i ho; simp only [ho] at h1; exact h1
  · rename_i o ho
    simp only [ho] at h1
    split
    · rename_i ha; rw [if_pos ha] at h1; exact h1
    · rename_i ha
      rw [if_neg ha] at h1
      split
      · rename_i hg; simp [hg] at h1
      · rename_i gv hg
        simp only [hg] at h1
        split
        · rename_i hD; simpa [hD] using h1
        · rename_i u hD
          simp only [hD] at h1
          exact openVal_mono h u v w h1

theorem openAll_mono {D : Registry} {f g : Ty → Bytes → Option OVal} (h : Extends f g) (ds : Comps) (us : OVals) :
    ∀ (cs : Comps) (vs ws : OVals), openAll D f ds us cs vs = some ws → openAll D g ds us cs vs = some ws
  | .cons fld t cs, .cons v vs, ws, hw => by
    simp only [openAll] at hw ⊢
    split at hw
    · rename_i w ws' h1 h2
      rw [openAll_mono h ds us cs vs ws' h2, openField_mono h ds us fld v w h1]
      exact hw
    · simp at hw
  | .nil, _, ws, hw => by simpa [openAll] using hw
  | .cons _ _ _, .nil, ws, hw => by simpa [openAll] using hw

mutual
theorem odecT_mono {D : Registry} {f g : Ty → Bytes → Option OVal} (h : Extends f g) : ∀ (t : Ty) (x : TLV) (w : OVal),
    odecT D f t x = some w → odecT D g t x = some w
  | .prim k a, x, w, hw => by simpa [odecT] using hw
  | .seq s a cs, x, w, hw => by
    simp only [odecT] at hw ⊢
    split at hw
    · simp at hw
    · rename_i xs hx
      split at hw
      · simp at hw
      · rename_i vs hvs
        have : (if s then (if xs.all cs.matches then odecSet D g cs xs else none) else odecComps D g cs xs) = some vs := by
          cases s with
          | false => simpa using odecComps_mono h cs xs vs (by simpa using hvs)
          | true =>
            simp only [if_true] at hvs ⊢
            split at hvs
            · rename_i hall; rw [if_pos hall]; exact odecSet_mono h cs xs vs hvs
            · simp at hvs
        rw [this]
        dsimp only
        cases hno : cs.noOpen with
        | true => rw [hno] at hw; exact hw
        | false =>
          rw [hno] at hw
          simp only [Bool.false_eq_true, if_false, Option.map_eq_some_iff] at hw ⊢
          obtain ⟨ws, h1, h2⟩ := hw
          exact ⟨ws, openAll_mono h cs vs cs vs ws h1, h2⟩
  | .of s a t, x, w, hw => by
    simp only [odecT] at hw ⊢
    split at hw
    · simp at hw
    · rename_i xs hx
      split at hw
      · simp at hw
      · rename_i vs hvs
        rw [mapOpt_mono (odecT_mono h t) xs vs hvs]
        exact hw
  | .choice a cs, x, w, hw => by
    simp only [odecT] at hw ⊢
    split at hw
    · exact odecAlt_mono h cs 0 x w hw
    · split at hw
      · simp at hw
      · split at hw
        · simp at hw
        · rename_i z r hz
          exact odecAlt_mono h cs 0 z w hw
  | .bad _, _, _, hw => by simp [odecT] at hw
theorem odecComps_mono {D : Registry} {f g : Ty → Bytes → Option OVal} (h : Extends f g) : ∀ (cs : Comps) (xs : List TLV)
    (ws : OVals), odecComps D f cs xs = some ws → odecComps D g cs xs = some ws
  | .nil, [], ws, hw => by simpa [odecComps] using hw
  | .nil, _ :: _, ws, hw => by simp [odecComps] at hw
  | .cons fld t cs, [], ws, hw => by
    simp only [odecComps] at hw ⊢
    split at hw
    · rename_i v ws' h1 h2
      simp only [h1, odecComps_mono h cs [] ws' h2]; exact hw
    · simp at hw
  | .cons fld t cs, x :: xs, ws, hw => by
    simp only [odecComps] at hw ⊢
    split at hw
    · rename_i hc
      rw [if_pos hc]
      split at hw
      · rename_i v ws' h1 h2
        simp only [odecT_mono h t x v h1, odecComps_mono h cs xs ws' h2]; exact hw
      · simp at hw
    · rename_i hc
      rw [if_neg hc]
      split at hw
      · rename_i v ws' h1 h2
        simp only [h1, odecComps_mono h cs (x :: xs) ws' h2]; exact hw
      · simp at hw
theorem odecSet_mono {D : Registry} {f g : Ty → Bytes → Option OVal} (h : Extends f g) : ∀ (cs : Comps) (xs : List TLV)
    (ws : OVals), odecSet D f cs xs = some ws → odecSet D g cs xs = some ws
  | .nil, xs, ws, hw => by simpa [odecSet] using hw
  | .cons fld t cs, xs, ws, hw => by
    simp only [odecSet] at hw ⊢
    split at hw
    · rename_i us ws' h1 h2
      simp only [mapOpt_mono (odecT_mono h t) _ us h1, odecSet_mono h cs xs ws' h2]; exact hw
    · simp at hw
theorem odecAlt_mono {D : Registry} {f g : Ty → Bytes → Option OVal} (h : Extends f g) : ∀ (cs : Comps) (k : Nat) (x : TLV)
    (w : OVal), odecAlt D f cs k x = some w → odecAlt D g cs k x = some w
  | .nil, _, _, _, hw => by simp [odecAlt] at hw
  | .cons fld t cs, k, x, w, hw => by
    simp only [odecAlt] at hw ⊢
    split at hw
    · rename_i hm
      rw [if_pos hm]
      split at hw
      · rename_i w' h1
        rw [odecT_mono h t x w' h1]; exact hw
      · simp at hw
    · rename_i hm
      rw [if_neg hm]
      exact odecAlt_mono h cs (k + 1) x w hw
end

theorem odecode_mono_succ (D : Registry) : ∀ (n : Nat) (t : Ty) (b : Bytes) (r : OVal × Bytes),
    odecode D n t b = some r → odecode D (n + 1) t b = some r
  | 0, _, _, _, h => by simp [odecode] at h
  | n + 1, t, b, r, h => by
    have hx : Extends (fun u c => (odecode D n u c).map Prod.fst) (fun u c => (odecode D (n + 1) u c).map Prod.fst) := by
      intro u c w h
      simp only [Option.map_eq_some_iff] at h ⊢
      obtain ⟨p, h1, h2⟩ := h
      exact ⟨p, odecode_mono_succ D n u c p h1, h2⟩
    rw [odecode] at h ⊢
    split at h
    · simp at h
    · rename_i x rest hr
      split at h
      · simp at h
      · rename_i v hv
        rw [odecT_mono hx t x v hv]
        exact h

theorem odecode_mono (D : Registry) (n m : Nat) (h : n ≤ m) (t : Ty) (b : Bytes) (r : OVal × Bytes)
    (hr : odecode D n t b = some r) : odecode D m t b = some r := by
  induction m with
  | zero =>
    have : n = 0 := by omega
    subst this; exact hr
  | succ m ih =>
    by_cases hn : n ≤ m
    · exact odecode_mono_succ D m t b r (ih hn)
    · have : n = m + 1 := by omega
      subst this; exact hr

/-! ## How much fuel is enough -/

/-- The octets of open fields are shorter than `N`. -/
def Short (N : Nat) : OVal → Prop
  | .leaf (.octets b) => b.length < N
  | .list ws => ∀ b, .leaf (.octets b) ∈ ws.toList → b.length < N
  | _ => True

def ShortC (N : Nat) : Comps → OVals → Prop
  | .cons f _ cs, .cons w ws => (f.openType ≠ none → Short N w) ∧ ShortC N cs ws
  | _, _ => True

/-- No open type field has a default. -/
def Comps.openOk : Comps → Bool
  | .nil => true
  | .cons f _ cs => (f.openType.isNone || f.mode.isReq || f.mode.isOpt) && cs.openOk

def Ty.openOk : Ty → Bool
  | .seq _ _ cs => cs.openOk
  | _ => true

/-- The octets of an element exceed its contents. -/
def Proper (x : TLV) : Prop := x.content.length < x.raw.length

theorem readTLV_proper {b : Bytes} {x : TLV} {r : Bytes} (h : readTLV b = some (x, r)) :
    Proper x ∧ x.raw.length ≤ b.length := by
  obtain ⟨h1, _, _, h4⟩ := readTLV_suffix b x r h
  refine ⟨h4, ?_⟩
  rw [h1, List.length_append]; omega

theorem parseTLVs_proper : ∀ (fuel : Nat) (b : Bytes) (xs : List TLV), parseTLVs fuel b = some xs →
    ∀ x ∈ xs, Proper x ∧ x.raw.length ≤ b.length
  | _, [], xs, h => by
    simp [parseTLVs] at h; subst h; simp
  | 0, _ :: _, xs, h => by simp [parseTLVs] at h
  | fuel + 1, b :: bs, xs, h => by
    simp only [parseTLVs] at h
    split at h
    · simp at h
    · rename_i x rest hx
      split at h
      · simp at h
      · rename_i ys hys
        simp at h; subst h
        obtain ⟨h1, _, _, _⟩ := readTLV_suffix _ x rest hx
        intro y hy
        rcases List.mem_cons.1 hy with rfl | hy
        · exact readTLV_proper hx
        · obtain ⟨h2, h3⟩ := parseTLVs_proper fuel rest ys hys y hy
          refine ⟨h2, ?_⟩
          rw [h1, List.length_append]; omega

theorem unwrap_proper : ∀ (ts : List Tag) (x y : TLV), unwrap ts x = some y → Proper x →
    Proper y ∧ y.raw.length ≤ x.raw.length
  | [], _, _, h, _ => by simp [unwrap] at h
  | [t], x, y, h, hp => by
    simp only [unwrap] at h
    split at h
    · simp at h; subst h; exact ⟨hp, Nat.le_refl _⟩
    · simp at h
  | t :: t' :: ts, x, y, h, hp => by
    simp only [unwrap] at h
    split at h
    · split at h
      · rename_i z r hz
        obtain ⟨h1, h2⟩ := readTLV_proper hz
        obtain ⟨h3, h4⟩ := unwrap_proper (t' :: ts) z y h h1
        unfold Proper at hp
        exact ⟨h3, by omega⟩
      · simp at h
    · simp at h

theorem innerItems_proper {a : Attrs} {x : TLV} {xs : List TLV} (h : innerItems a x = some xs) (hp : Proper x) :
    ∀ y ∈ xs, Proper y ∧ y.raw.length < x.raw.length := by
  simp only [innerItems] at h
  split at h
  · simp at h
  · rename_i z hz
    obtain ⟨h1, h2⟩ := unwrap_proper _ x z hz hp
    split at h
    · intro y hy
      obtain ⟨h3, h4⟩ := parseTLVs_proper _ _ xs h y hy
      unfold Proper at h1
      exact ⟨h3, by omega⟩
    · simp at h

theorem decPrimT_short {k : Prim} {a : Attrs} {x : TLV} {b : Bytes} (h : decPrimT k a x = some (.octets b)) (hp : Proper x) :
    b.length ≤ x.raw.length := by
  unfold Proper at hp
  simp only [decPrimT] at h
  split at h
  · split at h
    · split at h <;> simp at h <;> subst h
      · omega
      · exact Nat.le_refl _
    · simp at h; subst h; exact Nat.le_refl _
  · rename_i hk
    split at h
    · simp at h
    · rename_i y hy
      obtain ⟨h1, h2⟩ := unwrap_proper _ x y hy hp
      unfold Proper at h1
      split at h
      · simp at h
      · split at h
        · simp at h
        · rename_i v hv
          split at h
          · simp at h; subst h
            have : b = y.content := by
              cases k <;> simp [decPrim] at hv
              · split at hv
                · simp at hv
                · split at hv <;> simp at hv
              · exact hv.symm
              · exact hv.symm
            rw [this]; omega
          · simp at h

theorem odecT_leaf_short {D : Registry} {f : Ty → Bytes → Option OVal} {t : Ty} {x : TLV} {b : Bytes}
    (h : odecT D f t x = some (.leaf (.octets b))) (hp : Proper x) : b.length ≤ x.raw.length := by
  have alt : ∀ (cs : Comps) (k : Nat) (x : TLV), odecAlt D f cs k x ≠ some (.leaf (.octets b)) := by
    intro cs
    induction cs using Comps.rec (motive_1 := fun _ => True) with
    | nil => intro k x h; simp [odecAlt] at h
    | cons fld t cs _ ih =>
      intro k x h
      simp only [odecAlt] at h
      split at h
      · split at h <;> simp at h
      · exact ih _ _ h
    | _ => trivial
  cases t with
  | prim k a =>
    simp only [odecT, Option.map_eq_some_iff] at h
    obtain ⟨v, h1, h2⟩ := h
    cases h2
    exact decPrimT_short h1 hp
  | seq s a cs =>
    simp only [odecT] at h
    split at h
    · simp at h
    · split at h
      · simp at h
      · split at h
        · split at h <;> simp at h
        · simp at h
  | of s a t =>
    simp only [odecT] at h
    split at h
    · simp at h
    · split at h <;> simp at h
  | choice a cs =>
    simp only [odecT] at h
    split at h
    · exact absurd h (alt _ _ _)
    · split at h
      · simp at h
      · split at h
        · simp at h
        · exact absurd h (alt _ _ _)
  | bad w => simp [odecT] at h

theorem mapOpt_mem {α β : Type} {p : α → Option β} : ∀ {xs : List α} {ys : List β}, mapOpt p xs = some ys →
    ∀ y ∈ ys, ∃ x ∈ xs, p x = some y
  | [], ys, h => by simp [mapOpt] at h; subst h; simp
  | x :: xs, ys, h => by
    simp only [mapOpt] at h
    split at h
    · rename_i z zs h1 h2
      simp at h; subst h
      intro y hy
      rcases List.mem_cons.1 hy with rfl | hy
      · exact ⟨x, by simp, h1⟩
      · obtain ⟨x', h3, h4⟩ := mapOpt_mem h2 y hy
        exact ⟨x', by simp [h3], h4⟩
    · simp at h

theorem odecT_short {D : Registry} {f : Ty → Bytes → Option OVal} {t : Ty} {x : TLV} {w : OVal} {N : Nat}
    (h : odecT D f t x = some w) (hp : Proper x) (hN : x.raw.length < N) : Short N w := by
  cases w with
  | leaf v =>
    cases v with
    | octets b => have := odecT_leaf_short h hp; simp only [Short]; omega
    | _ => trivial
  | list ws =>
    intro b hb
    cases t with
    | of s a t =>
      simp only [odecT] at h
      split at h
      · simp at h
      · rename_i xs hxs
        split at h
        · simp at h
        · rename_i vs hvs
          simp at h; subst h
          rw [OVals.toList_ofList] at hb
          obtain ⟨y, h1, h2⟩ := mapOpt_mem hvs _ hb
          obtain ⟨h3, h4⟩ := innerItems_proper hxs hp y h1
          have := odecT_leaf_short h2 h3
          omega
    | prim k a => simp [odecT] at h
    | seq s a cs =>
      simp only [odecT] at h
      split at h
      · simp at h
      · split at h
        · simp at h
        · split at h
          · split at h <;> simp at h
          · simp at h
    | choice a cs =>
      have alt : ∀ (cs : Comps) (k : Nat) (x : TLV), odecAlt D f cs k x ≠ some (.list ws) := by
        intro cs
        induction cs using Comps.rec (motive_1 := fun _ => True) with
        | nil => intro k x h; simp [odecAlt] at h
        | cons fld t cs _ ih =>
          intro k x h
          simp only [odecAlt] at h
          split at h
          · split at h <;> simp at h
          · exact ih _ _ h
        | _ => trivial
      simp only [odecT] at h
      split at h
      · exact absurd h (alt _ _ _)
      · split at h
        · simp at h
        · split at h
          · simp at h
          · exact absurd h (alt _ _ _)
    | bad w => simp [odecT] at h
  | _ => trivial

theorem missing_short {f : Field} {t : Ty} {cs : Comps} {v : Val} (ho : (Comps.cons f t cs).openOk = true) (hm : f.mode.missing = some v)
    (N : Nat) : f.openType ≠ none → Short N (.leaf v) := by
  intro h
  simp only [Comps.openOk, Bool.and_eq_true, Bool.or_eq_true, Option.isNone_iff_eq_none] at ho
  cases hf : f.mode with
  | req => simp [hf, Mode.missing] at hm
  | opt => simp [hf, Mode.missing] at hm; subst hm; trivial
  | dflt d => simp [hf, Mode.isReq, Mode.isOpt] at ho; exact absurd ho.1 h

theorem openOk_tail {f : Field} {t : Ty} {cs : Comps} (ho : (Comps.cons f t cs).openOk = true) : cs.openOk = true := by
  simp only [Comps.openOk, Bool.and_eq_true] at ho; exact ho.2

theorem odecComps_short {D : Registry} {f : Ty → Bytes → Option OVal} {N : Nat} : ∀ (cs : Comps) (xs : List TLV) (ws : OVals),
    cs.openOk = true → odecComps D f cs xs = some ws → (∀ x ∈ xs, Proper x ∧ x.raw.length < N) → ShortC N cs ws
  | .nil, _, _, _, _, _ => by simp [ShortC]
  | .cons fld t cs, [], ws, ho, h, hx => by
    simp only [odecComps] at h
    split at h
    · rename_i v ws' h1 h2
      simp at h; subst h
      exact ⟨missing_short ho h1 N, odecComps_short cs [] ws' (openOk_tail ho) h2 hx⟩
    · simp at h
  | .cons fld t cs, x :: xs, ws, ho, h, hx => by
    simp only [odecComps] at h
    split at h
    · split at h
      · rename_i v ws' h1 h2
        simp at h; subst h
        obtain ⟨h3, h4⟩ := hx x (by simp)
        exact ⟨fun _ => odecT_short h1 h3 h4, odecComps_short cs xs ws' (openOk_tail ho) h2 (fun y hy => hx y (by simp [hy]))⟩
      · simp at h
    · split at h
      · rename_i v ws' h1 h2
        simp at h; subst h
        exact ⟨missing_short ho h1 N, odecComps_short cs _ ws' (openOk_tail ho) h2 hx⟩
      · simp at h

theorem odecSet_short {D : Registry} {f : Ty → Bytes → Option OVal} {N : Nat} : ∀ (cs : Comps) (xs : List TLV) (ws : OVals),
    cs.openOk = true → odecSet D f cs xs = some ws → (∀ x ∈ xs, Proper x ∧ x.raw.length < N) → ShortC N cs ws
  | .nil, _, _, _, _, _ => by simp [ShortC]
  | .cons fld t cs, xs, ws, ho, h, hx => by
    simp only [odecSet] at h
    split at h
    · rename_i us ws' h1 h2
      have ih := odecSet_short cs xs ws' (openOk_tail ho) h2 hx
      split at h
      · rename_i w hw
        simp at h; subst h
        obtain ⟨y, h3, h4⟩ := mapOpt_mem h1 w (List.mem_of_getLast? hw)
        obtain ⟨h5, h6⟩ := hx y (List.mem_filter.1 h3).1
        exact ⟨fun _ => odecT_short h4 h5 h6, ih⟩
      · split at h
        · rename_i v hv
          simp at h; subst h
          exact ⟨missing_short ho hv N, ih⟩
        · simp at h
    · simp at h

/-- `f` and `g` agree on short inputs for types the registry contains. -/
def AgreeOn (D : Registry) (N : Nat) (f g : Ty → Bytes → Option OVal) : Prop :=
  ∀ m k u c, D m k = some u → c.length < N → f u c = g u c

theorem mapOpt_congr {α β : Type} {p q : α → Option β} : ∀ (xs : List α), (∀ x ∈ xs, p x = q x) → mapOpt p xs = mapOpt q xs
  | [], _ => rfl
  | x :: xs, h => by
    simp only [mapOpt, h x (by simp), mapOpt_congr xs (fun y hy => h y (by simp [hy]))]

theorem openOne_congr {f g : Ty → Bytes → Option OVal} {N : Nat} {u : Ty} (h : ∀ c, c.length < N → f u c = g u c) (w : OVal)
    (hw : ∀ b, w = .leaf (.octets b) → b.length < N) : openOne f u w = openOne g u w := by
  unfold openOne
  split
  · rename_i b; rw [h b (hw b rfl)]
  · rfl

theorem openVal_congr {f g : Ty → Bytes → Option OVal} {N : Nat} {u : Ty} (h : ∀ c, c.length < N → f u c = g u c) (w : OVal)
    (hw : Short N w) : openVal f u w = openVal g u w := by
  cases w with
  | list vs =>
    simp only [openVal]
    rw [mapOpt_congr]
    intro x hx
    exact openOne_congr h x (fun b hb => hw b (hb ▸ hx))
  | leaf v => exact openOne_congr h _ (fun b hb => by cases hb; exact hw)
  | record vs => rfl
  | alt i v => rfl
  | opened t v => rfl

theorem openField_congr {D : Registry} {f g : Ty → Bytes → Option OVal} {N : Nat} (h : AgreeOn D N f g) (ds : Comps) (us : OVals)
    (fld : Field) (v : OVal) (hs : fld.openType ≠ none → Short N v) : openField D f ds us fld v = openField D g ds us fld v := by
  simp only [openField]
  split
  · rfl
  · rename_i ot ho
    split
    · rfl
    · split
      · rfl
      · rename_i k hk
        split
        · rfl
        · rename_i u hu
          exact openVal_congr (fun c hc => h _ _ u c hu hc) v (hs (by simp [ho]))

theorem openAll_congr {D : Registry} {f g : Ty → Bytes → Option OVal} {N : Nat} (h : AgreeOn D N f g) (ds : Comps) (us : OVals) :
    ∀ (cs : Comps) (vs : OVals), ShortC N cs vs → openAll D f ds us cs vs = openAll D g ds us cs vs
  | .cons fld t cs, .cons v vs, hs => by
    simp only [openAll]
    rw [openAll_congr h ds us cs vs hs.2, openField_congr h ds us fld v hs.1]
  | .nil, _, _ => by simp [openAll]
  | .cons _ _ _, .nil, _ => by simp [openAll]

mutual
theorem odecT_congr {D : Registry} {f g : Ty → Bytes → Option OVal} {N : Nat} (h : AgreeOn D N f g) : ∀ (t : Ty) (x : TLV),
    t.each Ty.openOk = true → Proper x → x.raw.length ≤ N → odecT D f t x = odecT D g t x
  | .prim k a, x, _, _, _ => by simp [odecT]
  | .seq s a cs, x, ho, hp, hN => by
    simp only [Ty.each, Ty.openOk, Bool.and_eq_true] at ho
    simp only [odecT]
    split
    · rfl
    · rename_i xs hx
      have hin : ∀ y ∈ xs, Proper y ∧ y.raw.length < N := by
        intro y hy
        obtain ⟨h1, h2⟩ := innerItems_proper hx hp y hy
        exact ⟨h1, by omega⟩
      rw [odecComps_congr h cs xs ho.2 hin, odecSet_congr h cs xs ho.2 hin]
      split
      · rfl
      · rename_i vs hvs
        split
        · rfl
        · rw [openAll_congr h cs vs cs vs]
          cases s with
          | false => exact odecComps_short cs xs vs ho.1 (by simpa using hvs) hin
          | true =>
            simp only [if_true] at hvs
            split at hvs
            · exact odecSet_short cs xs vs ho.1 hvs hin
            · simp at hvs
  | .of s a t, x, ho, hp, hN => by
    simp only [Ty.each, Bool.and_eq_true] at ho
    simp only [odecT]
    split
    · rfl
    · rename_i xs hx
      rw [mapOpt_congr xs (fun y hy => ?_)]
      obtain ⟨h1, h2⟩ := innerItems_proper hx hp y hy
      exact odecT_congr h t y ho.2 h1 (by omega)
  | .choice a cs, x, ho, hp, hN => by
    simp only [Ty.each, Bool.and_eq_true] at ho
    simp only [odecT]
    split
    · exact odecAlt_congr h cs 0 x ho.2 hp hN
    · split
      · rfl
      · rename_i y hy
        obtain ⟨h1, h2⟩ := unwrap_proper _ x y hy hp
        split
        · rfl
        · rename_i z r hz
          obtain ⟨h3, h4⟩ := readTLV_proper hz
          unfold Proper at h1
          exact odecAlt_congr h cs 0 z ho.2 h3 (by omega)
  | .bad _, _, _, _, _ => by simp [odecT]
theorem odecComps_congr {D : Registry} {f g : Ty → Bytes → Option OVal} {N : Nat} (h : AgreeOn D N f g) : ∀ (cs : Comps)
    (xs : List TLV), cs.each Ty.openOk = true → (∀ x ∈ xs, Proper x ∧ x.raw.length < N) →
    odecComps D f cs xs = odecComps D g cs xs
  | .nil, [], _, _ => by simp [odecComps]
  | .nil, _ :: _, _, _ => by simp [odecComps]
  | .cons fld t cs, [], ho, hx => by
    simp only [Comps.each, Bool.and_eq_true] at ho
    simp only [odecComps, odecComps_congr h cs [] ho.2 hx]
  | .cons fld t cs, x :: xs, ho, hx => by
    simp only [Comps.each, Bool.and_eq_true] at ho
    obtain ⟨h1, h2⟩ := hx x (by simp)
    simp only [odecComps, odecComps_congr h cs (x :: xs) ho.2 hx, odecT_congr h t x ho.1 h1 (by omega),
      odecComps_congr h cs xs ho.2 (fun y hy => hx y (by simp [hy]))]
theorem odecSet_congr {D : Registry} {f g : Ty → Bytes → Option OVal} {N : Nat} (h : AgreeOn D N f g) : ∀ (cs : Comps)
    (xs : List TLV), cs.each Ty.openOk = true → (∀ x ∈ xs, Proper x ∧ x.raw.length < N) →
    odecSet D f cs xs = odecSet D g cs xs
  | .nil, _, _, _ => by simp [odecSet]
  | .cons fld t cs, xs, ho, hx => by
    simp only [Comps.each, Bool.and_eq_true] at ho
    simp only [odecSet, odecSet_congr h cs xs ho.2 hx]
    rw [mapOpt_congr (xs.filter t.matches) (fun y hy => ?_)]
    obtain ⟨h1, h2⟩ := hx y (List.mem_filter.1 hy).1
    exact odecT_congr h t y ho.1 h1 (by omega)
theorem odecAlt_congr {D : Registry} {f g : Ty → Bytes → Option OVal} {N : Nat} (h : AgreeOn D N f g) : ∀ (cs : Comps)
    (k : Nat) (x : TLV), cs.each Ty.openOk = true → Proper x → x.raw.length ≤ N → odecAlt D f cs k x = odecAlt D g cs k x
  | .nil, _, _, _, _, _ => by simp [odecAlt]
  | .cons fld t cs, k, x, ho, hp, hN => by
    simp only [Comps.each, Bool.and_eq_true] at ho
    simp only [odecAlt, odecAlt_congr h cs (k + 1) x ho.2 hp hN, odecT_congr h t x ho.1 hp hN]
end

/-- No type of the registry has an open type field with a default. -/
def Registry.openOk (D : Registry) : Prop := ∀ m k u, D m k = some u → u.each Ty.openOk = true

/-- Any two bounds above the length of the input give the same result. -/
theorem odecode_fuel {D : Registry} (hD : D.openOk) : ∀ (N : Nat) (t : Ty) (b : Bytes) (n m : Nat), t.each Ty.openOk = true →
    b.length ≤ N → b.length < n → b.length < m → odecode D n t b = odecode D m t b
  | N, t, b, 0, _, _, _, hn, _ => by omega
  | N, t, b, _, 0, _, _, _, hm => by omega
  | N, t, b, n + 1, m + 1, ht, hN, hn, hm => by
    simp only [odecode]
    split
    · rfl
    · rename_i x rest hx
      obtain ⟨h1, h2⟩ := readTLV_proper hx
      rw [odecT_congr (g := fun u c => (odecode D m u c).map Prod.fst) (N := b.length) ?_ t x ht h1 h2]
      intro m' k u c hu hc
      cases N with
      | zero => omega
      | succ N =>
        show (odecode D n u c).map Prod.fst = (odecode D m u c).map Prod.fst
        rw [odecode_fuel hD N u c n m (hD m' k u hu) (by omega) (by omega) (by omega)]

end Asn1
end Verif
