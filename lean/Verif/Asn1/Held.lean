import Verif.Asn1.Keep
import Verif.Asn1.Canon
import Verif.Asn1.DerOk
import Verif.Spec.Der
import Verif.Spec.Empty

/-!
# OPTIONAL as DEFAULT nothing

A component that is OPTIONAL is, for the decoder and for X.690, one whose default is to be absent; only the encoder makes a
difference, when it drops empty collections.  So what is known of `enc` carries over to `encKeep`.
-/

namespace Verif
namespace Asn1

def Mode.held : Mode → Mode
  | .opt => .dflt .absent
  | m => m

def Field.held (f : Field) : Field := { f with mode := f.mode.held }

mutual
def Ty.held : Ty → Ty
  | .prim k a => .prim k a
  | .seq s a cs => .seq s a cs.held
  | .of s a t => .of s a t.held
  | .choice a cs => .choice a cs.held
  | .bad w => .bad w
def Comps.held : Comps → Comps
  | .nil => .nil
  | .cons f t cs => .cons f.held t.held cs.held
end

theorem Mode.held_isReq (m : Mode) : m.held.isReq = m.isReq := by cases m <;> rfl
theorem Mode.held_isOpt (m : Mode) : m.held.isOpt = false := by cases m <;> rfl
theorem Mode.held_missing (m : Mode) : m.held.missing = m.missing := by cases m <;> rfl
theorem Field.held_mode (f : Field) : f.held.mode = f.mode.held := rfl
theorem Field.held_name (f : Field) : f.held.name = f.name := rfl
theorem Field.held_open (f : Field) : f.held.openType = f.openType := rfl

theorem Mode.held_dflt {m : Mode} {v : Val} (hv : v ≠ .absent) : m.held = .dflt v ↔ m = .dflt v := by
  cases m <;> simp [Mode.held, Ne.symm hv]

theorem Ty.held_attrs (t : Ty) : t.held.attrs = t.attrs := by cases t <;> simp [Ty.held, Ty.attrs]
theorem Ty.held_tags (t : Ty) : t.held.tags = t.tags := by cases t <;> simp [Ty.held, Ty.tags]
theorem Ty.held_anyLike (t : Ty) : t.held.anyLike = t.anyLike := by cases t <;> simp [Ty.held, Ty.anyLike]

mutual
theorem Ty.held_matches : ∀ (t : Ty) (x : TLV), t.held.matches x = t.matches x
  | .prim _ _, x => rfl
  | .seq _ _ _, x => by simp [Ty.held, Ty.matches]
  | .of _ _ _, x => by simp [Ty.held, Ty.matches]
  | .choice _ cs, x => by simp only [Ty.held, Ty.matches, Comps.held_matches cs x]
  | .bad _, x => rfl
theorem Comps.held_matches : ∀ (cs : Comps) (x : TLV), cs.held.matches x = cs.matches x
  | .nil, _ => rfl
  | .cons _ t cs, x => by simp only [Comps.held, Comps.matches, Ty.held_matches t x, Comps.held_matches cs x]
end

theorem Comps.held_window (x : TLV) : ∀ cs : Comps, cs.held.windowMatches x = cs.windowMatches x
  | .nil => rfl
  | .cons f t cs => by
    simp only [Comps.held, Comps.windowMatches, Ty.held_matches, Field.held_mode, Mode.held_isReq, Comps.held_window x cs]

theorem Comps.held_noOpen : ∀ cs : Comps, cs.held.noOpen = cs.noOpen
  | .nil => rfl
  | .cons f t cs => by simp only [Comps.held, Comps.noOpen, Field.held_open, Comps.held_noOpen cs]

theorem Comps.held_names : ∀ (cs : Comps) (vs : Vals), presentNames cs.held vs = presentNames cs vs
  | .nil, vs => by cases vs <;> rfl
  | .cons f t cs, .nil => rfl
  | .cons f t cs, .cons v vs => by simp only [Comps.held, presentNames, Comps.held_names cs vs, Field.held_name]

theorem Comps.held_get : ∀ (cs : Comps) (i : Nat), cs.held.get? i = (cs.get? i).map (fun p => (p.1.held, p.2.held))
  | .nil, _ => rfl
  | .cons _ _ _, 0 => rfl
  | .cons _ _ cs, i + 1 => Comps.held_get cs i

theorem Ty.held_setKey (t : Ty) (v : Val) : setKey t.held v = setKey t v := by
  cases t with
  | choice a cs =>
    cases v with
    | alt i v =>
      simp only [Ty.held, setKey, Comps.held_get]
      cases cs.get? i with
      | none => rfl
      | some p => simp only [Option.map_some, Ty.held_tags]
    | _ => simp [Ty.held, setKey, Ty.tags]
  | _ => simp [Ty.held, setKey, Ty.tags]

/-! ## The decoder -/

mutual
theorem Ty.held_decT : ∀ (t : Ty) (x : TLV), decT t.held x = decT t x
  | .prim _ _, _ => rfl
  | .seq s a cs, x => by
    simp only [Ty.held, decT, Comps.held_noOpen, Comps.held_names]
    have h1 : ∀ xs, decSet cs.held xs = decSet cs xs := Comps.held_decSet cs
    have h2 : ∀ xs, decComps cs.held xs = decComps cs xs := Comps.held_decComps cs
    have h3 : cs.held.matches = cs.matches := funext (Comps.held_matches cs)
    simp only [h1, h2, h3]
  | .of s a t, x => by
    have : decT t.held = decT t := funext (Ty.held_decT t)
    simp only [Ty.held, decT, this]
  | .choice a cs, x => by
    have : ∀ k y, decAlt cs.held k y = decAlt cs k y := Comps.held_decAlt cs
    simp only [Ty.held, decT, this]
  | .bad _, _ => rfl
theorem Comps.held_decComps : ∀ (cs : Comps) (xs : List TLV), decComps cs.held xs = decComps cs xs
  | .nil, _ => rfl
  | .cons f t cs, [] => by
    simp only [Comps.held, decComps, Field.held_mode, Mode.held_missing, Comps.held_decComps cs []]
  | .cons f t cs, x :: xs => by
    simp only [Comps.held, decComps, Field.held_mode, Mode.held_missing, Mode.held_isReq, Ty.held_matches, Ty.held_anyLike,
      Comps.held_window, Ty.held_decT t x, Comps.held_decComps cs xs, Comps.held_decComps cs (x :: xs)]
theorem Comps.held_decSet : ∀ (cs : Comps) (xs : List TLV), decSet cs.held xs = decSet cs xs
  | .nil, _ => rfl
  | .cons f t cs, xs => by
    have h1 : decT t.held = decT t := funext (Ty.held_decT t)
    have h2 : t.held.matches = t.matches := funext (Ty.held_matches t)
    simp only [Comps.held, decSet, Field.held_mode, Mode.held_missing, h1, h2, Comps.held_decSet cs xs]
theorem Comps.held_decAlt : ∀ (cs : Comps) (k : Nat) (x : TLV), decAlt cs.held k x = decAlt cs k x
  | .nil, _, _ => rfl
  | .cons f t cs, k, x => by
    simp only [Comps.held, decAlt, Ty.held_matches, Ty.held_decT t x, Comps.held_decAlt cs (k + 1) x]
end

theorem Ty.held_decode (t : Ty) (b : Bytes) : decode t.held b = decode t b := by simp only [decode, Ty.held_decT]

mutual
theorem Ty.held_strict : ∀ (t : Ty) (x : TLV), t.held.strict x → t.strict x
  | .prim _ _, _, _ => by simp [Ty.strict]
  | .seq s a cs, x, h => by
    simp only [Ty.held, Ty.strict] at h ⊢
    intro xs hx
    have := h xs hx
    cases s
    · exact Comps.held_strictSeq cs xs this
    · exact Comps.held_strictSet cs xs this
  | .of s a t, x, h => by
    simp only [Ty.held, Ty.strict] at h ⊢
    exact fun xs hx y hy => Ty.held_strict t y (h xs hx y hy)
  | .choice a cs, x, h => by
    simp only [Ty.held, Ty.strict] at h ⊢
    split
    · rename_i ht
      rw [ht] at h
      exact Comps.held_strictAlt cs x h
    · rename_i ht
      rw [ht] at h
      exact fun y z r h1 h2 => Comps.held_strictAlt cs z (h y z r (by rw [← ht]; exact h1) h2)
  | .bad _, _, _ => by simp [Ty.strict]
theorem Comps.held_strictSeq : ∀ (cs : Comps) (xs : List TLV), cs.held.strictSeq xs → cs.strictSeq xs
  | .nil, xs, _ => by cases xs <;> simp [Comps.strictSeq]
  | .cons f t cs, [], _ => by simp [Comps.strictSeq]
  | .cons f t cs, x :: xs, h => by
    simp only [Comps.held, Comps.strictSeq, Field.held_mode, Mode.held_isReq, Ty.held_matches, Ty.held_anyLike,
      Comps.held_window, Ty.held_decT] at h ⊢
    split
    · rename_i hc
      rw [if_pos hc] at h
      refine ⟨Ty.held_strict t x h.1, fun v hv hm => ?_, Comps.held_strictSeq cs xs h.2.2⟩
      exact h.2.1 v hv (by rw [hm]; rfl)
    · rename_i hc
      rw [if_neg hc] at h
      exact Comps.held_strictSeq cs (x :: xs) h
theorem Comps.held_strictSet : ∀ (cs : Comps) (xs : List TLV), cs.held.strictSet xs → cs.strictSet xs
  | .nil, xs, _ => by simp [Comps.strictSet]
  | .cons f t cs, xs, h => by
    simp only [Comps.held, Comps.strictSet, Field.held_mode, Ty.held_matches, Ty.held_decT] at h ⊢
    refine ⟨fun x hx hm => ?_, Comps.held_strictSet cs xs h.2⟩
    obtain ⟨h1, h2⟩ := h.1 x hx hm
    exact ⟨Ty.held_strict t x h1, fun v hv hd => h2 v hv (by rw [hd]; rfl)⟩
theorem Comps.held_strictAlt : ∀ (cs : Comps) (x : TLV), cs.held.strictAlt x → cs.strictAlt x
  | .nil, _, _ => by simp [Comps.strictAlt]
  | .cons f t cs, x, h => by
    simp only [Comps.held, Comps.strictAlt, Ty.held_matches] at h ⊢
    split
    · rename_i hc
      rw [if_pos hc] at h
      exact Ty.held_strict t x h
    · rename_i hc
      rw [if_neg hc] at h
      exact Comps.held_strictAlt cs x h
end

/-! ## Values -/

theorem Vals.every_congr {p q : Val → Bool} (h : ∀ v, p v = q v) (vs : Vals) : vs.every p = vs.every q := by
  rw [funext h]

mutual
theorem Ty.held_valid : ∀ (t : Ty) (v : Val), t.held.valid v = t.valid v
  | .prim _ _, _ => rfl
  | .seq s a cs, v => by
    cases v <;> simp only [Ty.held, Ty.valid]
    rw [Comps.held_valid, Comps.held_names]
  | .of s a t, v => by
    cases v <;> simp only [Ty.held, Ty.valid]
    rw [Vals.every_congr (Ty.held_valid t)]
  | .choice a cs, v => by
    cases v <;> simp only [Ty.held, Ty.valid]
    exact Comps.held_validAlt cs _ _
  | .bad _, _ => rfl
theorem Comps.held_valid : ∀ (cs : Comps) (vs : Vals), cs.held.valid vs = cs.valid vs
  | .nil, vs => by cases vs <;> rfl
  | .cons f t cs, .nil => rfl
  | .cons f t cs, .cons v vs => by
    simp only [Comps.held, Comps.valid, Field.held_mode, Ty.held_valid t v, Comps.held_valid cs vs]
    cases f.mode <;> simp [Mode.held]
theorem Comps.held_validAlt : ∀ (cs : Comps) (i : Nat) (v : Val), cs.held.validAlt i v = cs.validAlt i v
  | .nil, _, _ => rfl
  | .cons _ t _, 0, v => Ty.held_valid t v
  | .cons _ _ cs, i + 1, v => Comps.held_validAlt cs i v
end

mutual
theorem Ty.held_weight : ∀ (t : Ty) (v : Val), t.held.weight v = t.weight v
  | .prim _ _, _ => rfl
  | .seq s a cs, v => by
    cases v <;> simp only [Ty.held, Ty.weight]
    rw [Comps.held_weight]
  | .of s a t, v => by
    cases v <;> simp only [Ty.held, Ty.weight]
    rw [funext (Ty.held_weight t)]
  | .choice a cs, v => by
    cases v <;> simp only [Ty.held, Ty.weight]
    rw [Comps.held_weightAlt]
  | .bad _, _ => rfl
theorem Comps.held_weight : ∀ (cs : Comps) (vs : Vals), cs.held.weight vs = cs.weight vs
  | .nil, vs => by cases vs <;> rfl
  | .cons f t cs, .nil => rfl
  | .cons f t cs, .cons v vs => by simp only [Comps.held, Comps.weight, Ty.held_weight t v, Comps.held_weight cs vs]
theorem Comps.held_weightAlt : ∀ (cs : Comps) (i : Nat) (v : Val), cs.held.weightAlt i v = cs.weightAlt i v
  | .nil, _, _ => rfl
  | .cons _ t _, 0, v => Ty.held_weight t v
  | .cons _ _ cs, i + 1, v => Comps.held_weightAlt cs i v
end

mutual
theorem Ty.held_encodes : ∀ (t : Ty) (v : Val) (b : Bytes), Der.encodes t.held v b ↔ Der.encodes t v b
  | .prim _ _, _, _ => Iff.rfl
  | .seq s a cs, v, b => by
    cases v <;> simp only [Ty.held, Der.encodes]
    rename_i vs
    have h : ∀ es, Der.components cs.held vs es ↔ Der.components cs vs es := Comps.held_components cs vs
    simp only [h]
  | .of s a t, v, b => by
    cases v <;> simp only [Ty.held, Der.encodes]
    have h : Der.encodes t.held = Der.encodes t := funext fun v => funext fun b => propext (Ty.held_encodes t v b)
    simp only [h]
  | .choice a cs, v, b => by
    cases v <;> simp only [Ty.held, Der.encodes]
    rename_i i v
    have h : ∀ c, Der.alternative cs.held i v c ↔ Der.alternative cs i v c := Comps.held_alternative cs i v
    simp only [h]
  | .bad _, _, _ => Iff.rfl
theorem Comps.held_components : ∀ (cs : Comps) (vs : Vals) (es : List Bytes), Der.components cs.held vs es ↔ Der.components cs vs es
  | .nil, vs, _ => by cases vs <;> exact Iff.rfl
  | .cons f t cs, .nil, _ => Iff.rfl
  | .cons f t cs, .cons v vs, es => by
    have h1 : ∀ b, Der.encodes t.held v b ↔ Der.encodes t v b := Ty.held_encodes t v
    have h2 : ∀ es, Der.components cs.held vs es ↔ Der.components cs vs es := Comps.held_components cs vs
    simp only [Comps.held, Der.components, Field.held_mode, h1, h2]
    cases f.mode <;> simp only [Mode.held]
theorem Comps.held_alternative : ∀ (cs : Comps) (i : Nat) (v : Val) (b : Bytes), Der.alternative cs.held i v b ↔ Der.alternative cs i v b
  | .nil, _, _, _ => Iff.rfl
  | .cons _ t _, 0, v, b => Ty.held_encodes t v b
  | .cons _ _ cs, i + 1, v, b => Comps.held_alternative cs i v b
end

mutual
theorem Ty.held_care : ∀ (t : Ty) (v : Val), Der.care t.held v ↔ Der.care t v
  | .prim _ _, _ => Iff.rfl
  | .seq s a cs, v => by
    cases v <;> simp only [Ty.held, Der.care]
    exact Comps.held_cares cs _
  | .of s a t, v => by
    cases v <;> simp only [Ty.held, Der.care]
    have h : ∀ v, Der.care t.held v ↔ Der.care t v := Ty.held_care t
    simp only [h]
  | .choice a cs, v => by
    cases v <;> simp only [Ty.held, Der.care]
    exact Comps.held_careAlt cs _ _
  | .bad _, _ => Iff.rfl
theorem Comps.held_cares : ∀ (cs : Comps) (vs : Vals), Der.cares cs.held vs ↔ Der.cares cs vs
  | .nil, vs => by cases vs <;> exact Iff.rfl
  | .cons f t cs, .nil => Iff.rfl
  | .cons f t cs, .cons v vs => by
    have h1 := Ty.held_care t v
    have h2 := Comps.held_cares cs vs
    simp only [Comps.held, Der.cares, Field.held_mode, h1, h2]
    cases f.mode <;> simp only [Mode.held]
theorem Comps.held_careAlt : ∀ (cs : Comps) (i : Nat) (v : Val), Der.careAlt cs.held i v ↔ Der.careAlt cs i v
  | .nil, _, _ => Iff.rfl
  | .cons _ t _, 0, v => Ty.held_care t v
  | .cons _ _ cs, i + 1, v => Comps.held_careAlt cs i v
end

mutual
/-- Nothing disappears. -/
theorem Ty.held_same : ∀ (t : Ty) (v w : Val), t.held.same false v w → t.reorder v w
  | .prim _ _, _, _, h => h
  | .seq s a cs, v, w, h => by
    cases v <;> cases w <;> simp only [Ty.held, Ty.same, Ty.reorder] at h ⊢
    exact Comps.held_same cs _ _ h
  | .of s a t, v, w, h => by
    cases v <;> cases w <;> simp only [Ty.held, Ty.same, Ty.reorder] at h ⊢
    obtain ⟨us, h1, h2⟩ := h
    refine ⟨us, h1, ?_⟩
    have hf : us.filter (fun u => !(false && t.held.vanish u)) = us := List.filter_eq_self.2 (by simp)
    rw [hf] at h2
    exact all2_imp (fun a b hab => Ty.held_same t a b hab) h2
  | .choice a cs, v, w, h => by
    cases v <;> cases w <;> simp only [Ty.held, Ty.same, Ty.reorder] at h ⊢
    exact ⟨h.1, Comps.held_sameAlt cs _ _ _ h.2⟩
  | .bad _, _, _, h => by simp [Ty.held, Ty.same] at h
theorem Comps.held_same : ∀ (cs : Comps) (vs ws : Vals), cs.held.same vs ws → cs.reorder vs ws
  | .nil, vs, ws, h => by
    cases vs <;> cases ws <;> simp [Comps.held, Comps.same, Comps.reorder] at h ⊢
  | .cons f t cs, .nil, ws, h => by simp [Comps.held, Comps.same] at h
  | .cons f t cs, .cons v vs, .nil, h => by simp [Comps.held, Comps.same] at h
  | .cons f t cs, .cons v vs, .cons w ws, h => by
    simp only [Comps.held, Comps.same, Field.held_mode, Comps.reorder] at h ⊢
    refine ⟨?_, Comps.held_same cs vs ws h.2⟩
    have h1 := h.1
    cases hf : f.mode <;> simp only [hf, Mode.held] at h1 ⊢
    · exact Ty.held_same t v w h1
    · exact h1.imp id (fun h => ⟨h.1, Ty.held_same t v w h.2⟩)
    · exact h1.imp id (fun h => ⟨h.1, Ty.held_same t v w h.2⟩)
theorem Comps.held_sameAlt : ∀ (cs : Comps) (i : Nat) (v w : Val), cs.held.sameAlt false i v w → cs.reorderAlt i v w
  | .nil, _, _, _, h => by simp [Comps.held, Comps.sameAlt] at h
  | .cons _ t _, 0, v, w, h => Ty.held_same t v w h
  | .cons _ _ cs, i + 1, v, w, h => Comps.held_sameAlt cs i v w h
end

mutual
theorem Ty.held_kept : ∀ (t : Ty) (v : Val), t.held.kept false v = true
  | .prim _ _, _ => by simp [Ty.held, Ty.kept]
  | .seq s a cs, v => by
    cases v <;> simp only [Ty.held, Ty.kept]
    exact Comps.held_kept cs _
  | .of s a t, v => by
    cases v <;> simp only [Ty.held, Ty.kept]
    rw [Vals.every_iff, List.all_eq_true]
    intro u _
    simp [Ty.held_kept t u]
  | .choice a cs, v => by
    cases v <;> simp only [Ty.held, Ty.kept]
    exact Comps.held_keptAlt cs _ _
  | .bad _, _ => by simp [Ty.held, Ty.kept]
theorem Comps.held_kept : ∀ (cs : Comps) (vs : Vals), cs.held.kept vs = true
  | .nil, vs => by cases vs <;> rfl
  | .cons f t cs, .nil => rfl
  | .cons f t cs, .cons v vs => by
    simp only [Comps.held, Comps.kept, Field.held_mode, Ty.held_kept t v, Comps.held_kept cs vs]
    cases f.mode <;> simp [Mode.held]
theorem Comps.held_keptAlt : ∀ (cs : Comps) (i : Nat) (v : Val), cs.held.keptAlt false i v = true
  | .nil, _, _ => rfl
  | .cons _ t _, 0, v => Ty.held_kept t v
  | .cons _ _ cs, i + 1, v => Comps.held_keptAlt cs i v
end

/-! ## Conditions on types -/

mutual
theorem Ty.held_firsts : ∀ t : Ty, t.held.firsts = t.firsts
  | .prim _ _ | .seq _ _ _ | .of _ _ _ | .bad _ => by simp [Ty.held, Ty.firsts]
  | .choice a cs => by simp only [Ty.held, Ty.firsts, Comps.held_firsts cs]
theorem Comps.held_firsts : ∀ cs : Comps, cs.held.firsts = cs.firsts
  | .nil => rfl
  | .cons f t cs => by simp only [Comps.held, Comps.firsts, Ty.held_firsts t, Comps.held_firsts cs]
end

mutual
theorem Ty.held_anyFirst : ∀ t : Ty, t.held.anyFirst = t.anyFirst
  | .prim _ _ | .seq _ _ _ | .of _ _ _ | .bad _ => by simp [Ty.held, Ty.anyFirst]
  | .choice a cs => by simp only [Ty.held, Ty.anyFirst, Comps.held_anyFirst cs]
theorem Comps.held_anyFirst : ∀ cs : Comps, cs.held.anyFirst = cs.anyFirst
  | .nil => rfl
  | .cons f t cs => by simp only [Comps.held, Comps.anyFirst, Ty.held_anyFirst t, Comps.held_anyFirst cs]
end

theorem Ty.held_disjoint (t u : Ty) : t.held.disjoint u.held = t.disjoint u := by
  simp only [Ty.disjoint, Ty.held_firsts, Ty.held_anyFirst]

theorem Ty.held_window (t : Ty) : ∀ cs : Comps, t.held.disjointWindow cs.held = t.disjointWindow cs
  | .nil => rfl
  | .cons f u cs => by
    simp only [Comps.held, Ty.disjointWindow, Ty.held_disjoint, Field.held_mode, Mode.held_isReq, Ty.held_window t cs]

theorem Ty.held_all (t : Ty) : ∀ cs : Comps, t.held.disjointAll cs.held = t.disjointAll cs
  | .nil => rfl
  | .cons f u cs => by simp only [Comps.held, Ty.disjointAll, Ty.held_disjoint, Ty.held_all t cs]

theorem Comps.held_seqOk : ∀ cs : Comps, cs.held.seqOk = cs.seqOk
  | .nil => rfl
  | .cons f t cs => by
    simp only [Comps.held, Comps.seqOk, Field.held_mode, Mode.held_isReq, Ty.held_window, Comps.held_seqOk cs]

theorem Comps.held_pairOk : ∀ cs : Comps, cs.held.pairOk = cs.pairOk
  | .nil => rfl
  | .cons f t cs => by simp only [Comps.held, Comps.pairOk, Ty.held_all, Comps.held_pairOk cs]

theorem Comps.held_solid : ∀ cs : Comps, cs.held.solid = true
  | .nil => rfl
  | .cons f t cs => by
    simp only [Comps.held, Comps.solid, Field.held_mode, Mode.held_isOpt, Bool.not_false, Bool.true_or, Bool.true_and,
      Comps.held_solid cs]

mutual
theorem Ty.held_wf : ∀ t : Ty, t.wf = true → t.held.wf = true
  | .prim _ _, h => h
  | .seq s a cs, h => by
    simp only [Ty.wf, Ty.held, Bool.and_eq_true, Comps.held_pairOk, Comps.held_anyFirst, Comps.held_seqOk,
      Comps.held_solid, Bool.or_true, and_true] at h ⊢
    exact ⟨⟨h.1.1.1, Comps.held_wf cs h.1.1.2⟩, h.1.2⟩
  | .of s a t, h => by
    simp only [Ty.wf, Ty.held, Bool.and_eq_true] at h ⊢
    exact ⟨h.1, Ty.held_wf t h.2⟩
  | .choice a cs, h => by
    simp only [Ty.wf, Ty.held, Bool.and_eq_true, Comps.held_pairOk] at h ⊢
    exact ⟨⟨h.1.1, Comps.held_wf cs h.1.2⟩, h.2⟩
  | .bad _, h => h
theorem Comps.held_wf : ∀ cs : Comps, cs.wf = true → cs.held.wf = true
  | .nil, _ => rfl
  | .cons f t cs, h => by
    simp only [Comps.held, Comps.wf, Bool.and_eq_true] at h ⊢
    exact ⟨Ty.held_wf t h.1, Comps.held_wf cs h.2⟩
end

mutual
theorem Ty.held_canVanish : ∀ t : Ty, t.held.canVanish = t.canVanish
  | .prim _ _ => rfl
  | .seq s a cs => by simp only [Ty.held, Ty.canVanish, Comps.held_canVanish cs]
  | .of s a t => by simp only [Ty.held, Ty.canVanish, Ty.held_canVanish t]
  | .choice a cs => by simp only [Ty.held, Ty.canVanish, Comps.held_someVanish cs]
  | .bad _ => rfl
theorem Comps.held_canVanish : ∀ cs : Comps, cs.held.canVanish = cs.canVanish
  | .nil => rfl
  | .cons f t cs => by simp only [Comps.held, Comps.canVanish, Field.held_mode, Mode.held_isReq, Comps.held_canVanish cs]
theorem Comps.held_someVanish : ∀ cs : Comps, cs.held.someVanish = cs.someVanish
  | .nil => rfl
  | .cons f t cs => by simp only [Comps.held, Comps.someVanish, Ty.held_canVanish t, Comps.held_someVanish cs]
end

mutual
theorem Ty.held_rigid : ∀ t : Ty, t.rigid = true → t.held.rigid = true
  | .prim _ _, h => h
  | .seq s a cs, h => by
    simp only [Ty.held, Ty.rigid, Bool.and_eq_true, Comps.held_solid, and_true] at h ⊢
    exact Comps.held_rigid cs h.1
  | .of s a t, h => by simp [Ty.rigid] at h
  | .choice a cs, h => by
    simp only [Ty.held, Ty.rigid] at h ⊢
    exact Comps.held_rigid cs h
  | .bad _, h => h
theorem Comps.held_rigid : ∀ cs : Comps, cs.rigid = true → cs.held.rigid = true
  | .nil, _ => rfl
  | .cons f t cs, h => by
    simp only [Comps.held, Comps.rigid, Bool.and_eq_true] at h ⊢
    exact ⟨Ty.held_rigid t h.1, Comps.held_rigid cs h.2⟩
end

mutual
theorem Ty.held_stable : ∀ t : Ty, t.stable = true → t.held.stable = true
  | .prim _ _, h => h
  | .seq s a cs, h => by
    simp only [Ty.held, Ty.stable] at h ⊢
    exact Comps.held_stable cs h
  | .of s a t, h => by
    simp only [Ty.held, Ty.stable, Bool.and_eq_true, Ty.held_canVanish] at h ⊢
    exact ⟨Ty.held_stable t h.1, h.2⟩
  | .choice a cs, h => by
    simp only [Ty.held, Ty.stable] at h ⊢
    exact Comps.held_stable cs h
  | .bad _, h => h
theorem Comps.held_stable : ∀ cs : Comps, cs.stable = true → cs.held.stable = true
  | .nil, _ => rfl
  | .cons f t cs, h => by
    simp only [Comps.held, Comps.stable, Bool.and_eq_true, Field.held_mode] at h ⊢
    refine ⟨⟨Ty.held_stable t h.1.1, ?_⟩, Comps.held_stable cs h.2⟩
    have h1 := h.1.2
    cases hf : f.mode <;> simp only [hf, Mode.held, Bool.or_eq_true] at h1 ⊢
    · simp
    · exact h1.imp (Ty.held_rigid t) id
end

theorem Comps.held_toList : ∀ cs : Comps, cs.held.toList = cs.toList.map (fun p => (p.1.held, p.2.held))
  | .nil => rfl
  | .cons f t cs => by simp [Comps.held, Comps.toList, Comps.held_toList cs]

theorem Ty.held_keys (t : Ty) : t.held.keys = t.keys := by
  cases t with
  | choice a cs =>
    simp only [Ty.held, Ty.keys, Comps.held_toList, List.map_map]
    congr 2
    exact funext fun p => Ty.held_tags p.2
  | _ => simp [Ty.held, Ty.keys, Ty.tags]

theorem Comps.held_setOk : ∀ cs : Comps, cs.held.setOk = cs.setOk
  | .nil => rfl
  | .cons f t cs => by
    simp only [Comps.held, Comps.setOk, Ty.held_keys, Comps.held_toList, List.all_map, Function.comp_def, Comps.held_setOk cs]

mutual
theorem Ty.held_derOk : ∀ t : Ty, t.held.derOk = t.derOk
  | .prim _ _ => rfl
  | .seq s a cs => by simp only [Ty.held, Ty.derOk, Comps.held_derOk cs, Comps.held_setOk]
  | .of s a t => by simp only [Ty.held, Ty.derOk, Ty.held_derOk t]
  | .choice a cs => by simp only [Ty.held, Ty.derOk, Comps.held_derOk cs]
  | .bad _ => rfl
theorem Comps.held_derOk : ∀ cs : Comps, cs.held.derOk = cs.derOk
  | .nil => rfl
  | .cons f t cs => by simp only [Comps.held, Comps.derOk, Ty.held_derOk t, Comps.held_derOk cs]
end

end Asn1
end Verif
