import Verif.Asn1.HeapLemmas
import Verif.Asn1.AssignNarrow

/-! Lemmas: shared objects and the objects of C63. -/

namespace Verif
namespace Asn1

theorem Tree.made_ty {t : Tree} {m : Made} (h : t.made = some m) : ∃ v ks, t = .node m.ty v ks := by
  cases t with
  | node ty v ks =>
    cases ty with
    | prim k a =>
      cases v with
      | none => simp [Tree.made] at h
      | some v => simp [Tree.made] at h; subst h; exact ⟨_, _, rfl⟩
    | seq s a cs => simp [Tree.made] at h; obtain ⟨_, _, rfl⟩ := h; exact ⟨_, _, rfl⟩
    | of s a t => simp [Tree.made] at h; obtain ⟨_, _, rfl⟩ := h; exact ⟨_, _, rfl⟩
    | choice a cs => simp [Tree.made] at h; obtain ⟨_, _, _, rfl⟩ := h; exact ⟨_, _, rfl⟩
    | bad _ => simp [Tree.made] at h

theorem Kids.slots_set {u : Tree} {o : Made} (hu : u.made = some o) : ∀ {ks : Kids} {ss : MadeSlots} (i : Nat), ks.slots = some ss →
    (ks.set i u).slots = some (ss.set o i)
  | .nil, ss, 0, h => by simp [Kids.slots] at h; subst h; simp [Kids.set, Kids.slots, MadeSlots.set, hu]
  | .nil, ss, i + 1, h => by
    simp [Kids.slots] at h; subst h
    have := Kids.slots_set hu (ks := .nil) (ss := .nil) i rfl
    simp [Kids.set, Kids.slots, MadeSlots.set, this]
  | .gap ks, ss, 0, h => by
    simp [Kids.slots] at h; obtain ⟨ss, h, rfl⟩ := h
    simp [Kids.set, Kids.slots, MadeSlots.set, hu, h]
  | .gap ks, ss, i + 1, h => by
    simp [Kids.slots] at h; obtain ⟨ss, h, rfl⟩ := h
    have := Kids.slots_set hu i h
    simp [Kids.set, Kids.slots, MadeSlots.set, this]
  | .put t ks, ss, 0, h => by
    cases ht : t.made <;> cases hk : ks.slots <;> simp [Kids.slots, ht, hk] at h
    subst h
    simp [Kids.set, Kids.slots, MadeSlots.set, hu, hk]
  | .put t ks, ss, i + 1, h => by
    cases ht : t.made <;> cases hk : ks.slots <;> simp [Kids.slots, ht, hk] at h
    subst h
    have := Kids.slots_set hu i hk
    simp [Kids.set, Kids.slots, MadeSlots.set, ht, this]

theorem Kids.list_snoc {u : Tree} {o : Made} (hu : u.made = some o) : ∀ {ks : Kids} {os : MadeList}, ks.list = some os →
    (ks.set os.toList.length u).list = some (os.snoc o)
  | .nil, os, h => by simp [Kids.list] at h; subst h; simp [Kids.set, Kids.list, MadeList.snoc, MadeList.toList, hu]
  | .gap ks, os, h => by simp [Kids.list] at h
  | .put t ks, os, h => by
    cases ht : t.made <;> cases hk : ks.list <;> simp [Kids.list, ht, hk] at h
    subst h
    have := Kids.list_snoc hu hk
    simp [Kids.set, Kids.list, MadeList.snoc, MadeList.toList, ht, this]

theorem Kids.only_set {u : Tree} {o : Made} (hu : u.made = some o) : ∀ (i j : Nat),
    (Kids.set .nil i u).only j = some (j + i, o)
  | 0, j => by simp [Kids.set, Kids.only, hu]
  | i + 1, j => by
    have := Kids.only_set hu i (j + 1)
    simp only [Kids.set, Kids.only, this]
    congr 2
    omega

theorem Tree.made_set {t u : Tree} {m o m' : Made} (ht : t.made = some m) (hu : u.made = some o) (i : Nat) (h : m.assign i o = some m') :
    (t.set i u).made = some m' := by
  cases t with
  | node ty v ks =>
    cases ty with
    | prim k a =>
      cases v with
      | none => simp [Tree.made] at ht
      | some v => simp [Tree.made] at ht; subst ht; simp [Made.assign] at h
    | seq s a cs =>
      simp [Tree.made] at ht
      obtain ⟨ss, h1, rfl⟩ := ht
      simp only [Made.assign] at h
      cases hc : cs.get? i with
      | none => simp [hc] at h
      | some p =>
        simp [hc] at h
        obtain ⟨_, rfl⟩ := h
        simp [Tree.set, Tree.made, Kids.slots_set hu i h1]
    | of s a t =>
      simp [Tree.made] at ht
      obtain ⟨os, h1, rfl⟩ := ht
      simp [Made.assign] at h
      obtain ⟨⟨rfl, _⟩, rfl⟩ := h
      simp [Tree.set, Tree.made, Kids.list_snoc hu h1]
    | choice a cs =>
      simp [Tree.made] at ht
      obtain ⟨j, p, h1, rfl⟩ := ht
      simp only [Made.assign] at h
      cases hc : cs.get? i with
      | none => simp [hc] at h
      | some p =>
        simp [hc] at h
        obtain ⟨_, rfl⟩ := h
        simp [Tree.set, Tree.made, Kids.only_set hu i 0]
    | bad _ => simp [Tree.made] at ht

theorem Kids.ofList_list (f : Val → Tree) (g : Val → Made) (p : Val → Bool) (hp : ∀ v, p v = true → (f v).made = some (g v)) :
    ∀ (vs : Vals), vs.every p = true → (Kids.ofList f vs).list = some (MadeList.ofVals g vs)
  | .nil, _ => by simp [Kids.ofList, Kids.list, MadeList.ofVals]
  | .cons v vs, h => by
    simp only [Vals.every, Bool.and_eq_true] at h
    simp [Kids.ofList, Kids.list, MadeList.ofVals, hp v h.1, Kids.ofList_list f g p hp vs h.2]

mutual
/-- Objects made by the decoder are the objects of C63. -/
theorem Tree.ofVal_made : ∀ (t : Ty) (v : Val), t.valid v = true → (Tree.ofVal t v).made = some (Made.ofVal t v)
  | .prim k a, v, _ => by simp [Tree.ofVal, Tree.made, Made.ofVal]
  | .bad _, v, h => by simp [Ty.valid] at h
  | .seq s a cs, v, h => by
    cases v <;> simp only [Ty.valid, Bool.false_eq_true, Bool.and_eq_true] at h
    simp [Tree.ofVal, Tree.made, Made.ofVal, Kids.ofVals_made cs _ h.1]
  | .of s a t, v, h => by
    cases v <;> simp only [Ty.valid, Bool.false_eq_true, Bool.and_eq_true] at h
    simp [Tree.ofVal, Tree.made, Made.ofVal,
      Kids.ofList_list (Tree.ofVal t) (Made.ofVal t) t.valid (fun v hv => Tree.ofVal_made t v hv) _ h.1]
  | .choice a cs, v, h => by
    cases v <;> simp only [Ty.valid, Bool.false_eq_true] at h
    rename_i i v
    simp [Tree.ofVal, Tree.made, Made.ofVal, Kids.ofAlt_made cs i v 0 h]
theorem Kids.ofVals_made : ∀ (cs : Comps) (vs : Vals), cs.valid vs = true → (Kids.ofVals cs vs).slots = some (MadeSlots.ofVals cs vs)
  | .nil, vs, h => by
    cases vs <;> simp only [Comps.valid, Bool.false_eq_true] at h
    rfl
  | .cons f t cs, vs, h => by
    cases vs <;> simp only [Comps.valid, Bool.false_eq_true, Bool.and_eq_true] at h
    simp only [MadeSlots.ofVals, Kids.ofVals]
    split
    · simp [Kids.slots, Kids.ofVals_made cs _ h.2]
    · rename_i hm
      simp [Kids.slots, Kids.ofVals_made cs _ h.2, Tree.ofVal_made t _ (valid_put h.1 hm)]
theorem Kids.ofAlt_made : ∀ (cs : Comps) (i : Nat) (v : Val) (j : Nat), cs.validAlt i v = true →
    (Kids.ofAlt cs i v).only j = some (j + i, Made.ofAlt cs i v)
  | .nil, _, _, _, h => by simp [Comps.validAlt] at h
  | .cons _ t _, 0, v, j, h => by
    simp [Made.ofAlt, Kids.ofAlt, Kids.only, Tree.ofVal_made t v (by simpa only [Comps.validAlt] using h)]
  | .cons _ _ cs, i + 1, v, j, h => by
    have := Kids.ofAlt_made cs i v (j + 1) (by simpa only [Comps.validAlt] using h)
    simp only [Made.ofAlt, Kids.ofAlt, Kids.only, this]
    congr 2
    omega
end

theorem ShowsKids.list_length {h : Heap} : ∀ {as : List (Option Nat)} {ks : Kids} {os : MadeList}, ShowsKids h as ks → ks.list = some os →
    as.length = os.toList.length
  | _, _, os, .nil, hl => by simp [Kids.list] at hl; subst hl; rfl
  | _, _, os, .gap as ks _, hl => by simp [Kids.list] at hl
  | _, _, os, .put a t as ks _ hs, hl => by
    cases ht : t.made <;> cases hk : ks.list <;> simp [Kids.list, ht, hk] at hl
    subst hl
    simp [MadeList.toList, ShowsKids.list_length hs hk]

/-- The test made of an object in memory is that of C63. -/
theorem accepts_assign {h : Heap} {x y i : Nat} {t u : Tree} {m o : Made} {c d : Cell} (hx : Shows h x t) (hy : Shows h y u)
    (hm : t.made = some m) (ho : u.made = some o) (hc : h[x]? = some c) (hd : h[y]? = some d)
    (hi : ∀ s a t, c.ty = .of s a t → i = c.kids.length) : c.accepts i d.ty = (m.assign i o).isSome := by
  obtain ⟨v2, ks2, hu⟩ := Tree.made_ty ho
  have hd' : d.ty = o.ty := by
    cases hy with
    | node _ d' ks hd' _ =>
      rw [hd] at hd'
      cases hd'
      simpa using congrArg (fun t => match t with | Tree.node ty _ _ => ty) hu
  cases hx with
  | node _ c' ks hc' hk =>
    rw [hc] at hc'
    cases hc'
    rw [hd']
    unfold Cell.accepts
    cases hty : c.ty with
    | prim k a =>
      rw [hty] at hm
      cases hv : c.val with
      | none => rw [hv] at hm; simp [Tree.made] at hm
      | some v => rw [hv] at hm; simp [Tree.made] at hm; subst hm; rfl
    | seq s a cs =>
      rw [hty] at hm
      simp [Tree.made] at hm
      obtain ⟨ss, _, rfl⟩ := hm
      simp only [Made.assign]
      cases cs.get? i with
      | none => rfl
      | some p => cases hp : p.1.accepts p.2 o.ty <;> simp [hp]
    | of s a t =>
      have hl := hi s a t hty
      rw [hty] at hm
      simp [Tree.made] at hm
      obtain ⟨os, h1, rfl⟩ := hm
      rw [ShowsKids.list_length hk h1] at hl
      simp only [Made.assign, hl, ShowsKids.list_length hk h1]
      cases hp : elementAccepts t o.ty <;> simp
    | choice a cs =>
      rw [hty] at hm
      simp [Tree.made] at hm
      obtain ⟨j, p, _, rfl⟩ := hm
      simp only [Made.assign]
      cases cs.get? i with
      | none => rfl
      | some p => cases hp : p.1.accepts p.2 o.ty <;> simp [hp]
    | bad w =>
      rw [hty] at hm
      simp [Tree.made] at hm

end Asn1
end Verif
