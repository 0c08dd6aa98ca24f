import Verif.Asn1.Codec

/-! Facts about the stable sort used for SET and SET OF. -/

namespace Verif
namespace Asn1

section
variable {α β : Type} (le : β → β → Bool) (key : α → β)

theorem insertBy_perm (x : α) (l : List α) : (insertBy le key x l).Perm (x :: l) := by
  induction l with
  | nil => exact List.Perm.refl _
  | cons y l ih =>
    simp only [insertBy]
    split
    · exact List.Perm.refl _
    · exact (List.Perm.cons y ih).trans (List.Perm.swap x y l)

theorem sortBy_perm (l : List α) : (sortBy le key l).Perm l := by
  induction l with
  | nil => exact List.Perm.refl _
  | cons x l ih => exact (insertBy_perm le key x _).trans (List.Perm.cons x ih)

/-- Sorted with respect to the key. -/
def SortedBy (l : List α) : Prop := l.Pairwise (fun a b => le (key a) (key b) = true)

variable (htot : ∀ a b, le a b = false → le b a = true) (htr : ∀ a b c, le a b = true → le b c = true → le a c = true)

include htot htr in
theorem insertBy_sorted (x : α) (l : List α) (h : SortedBy le key l) : SortedBy le key (insertBy le key x l) := by
  induction l with
  | nil => exact List.pairwise_singleton _ _
  | cons y l ih =>
    unfold SortedBy at *
    simp only [insertBy]
    have h' := List.pairwise_cons.1 h
    split
    · rename_i hxy
      refine List.pairwise_cons.2 ⟨?_, h⟩
      intro a ha
      rcases List.mem_cons.1 ha with rfl | ha
      · exact hxy
      · exact htr _ _ _ hxy (h'.1 a ha)
    · rename_i hxy
      refine List.pairwise_cons.2 ⟨?_, ih h'.2⟩
      intro a ha
      have := (insertBy_perm le key x l).mem_iff.1 ha
      rcases List.mem_cons.1 this with rfl | ha
      · exact htot _ _ (by simpa using hxy)
      · exact h'.1 a ha

include htot htr in
theorem sortBy_sorted (l : List α) : SortedBy le key (sortBy le key l) := by
  induction l with
  | nil => exact List.Pairwise.nil
  | cons x l ih => exact insertBy_sorted le key htot htr x _ ih

theorem insertBy_head (x : α) (l : List α) (h : ∀ y ∈ l, le (key x) (key y) = true) : insertBy le key x l = x :: l := by
  cases l with
  | nil => rfl
  | cons y l => simp [insertBy, h y (by simp)]

theorem sortBy_id (l : List α) (h : SortedBy le key l) : sortBy le key l = l := by
  induction l with
  | nil => rfl
  | cons x l ih =>
    have h' := List.pairwise_cons.1 h
    simp only [sortBy]
    rw [ih h'.2]
    exact insertBy_head le key x l h'.1

include htr in
theorem insertBy_filter (p : α → Bool) (x : α) (l : List α) (h : SortedBy le key l) :
    (insertBy le key x l).filter p = if p x then insertBy le key x (l.filter p) else l.filter p := by
  induction l with
  | nil => simp [insertBy, List.filter_cons]
  | cons y l ih =>
    have h' := List.pairwise_cons.1 h
    simp only [insertBy]
    split
    · rename_i hxy
      by_cases hx : p x
      · rw [List.filter_cons_of_pos hx, if_pos hx]
        rw [insertBy_head]
        intro z hz
        have hz := (List.mem_filter.1 hz).1
        rcases List.mem_cons.1 hz with rfl | hz
        · exact hxy
        · exact htr _ _ _ hxy (h'.1 z hz)
      · rw [List.filter_cons_of_neg hx, if_neg hx]
    · rename_i hxy
      rw [List.filter_cons, ih h'.2, List.filter_cons]
      by_cases hx : p x <;> by_cases hy : p y <;> simp [hx, hy, insertBy, hxy]

include htot htr in
/-- Sorting and then dropping elements is dropping them and then sorting. -/
theorem sortBy_filter (p : α → Bool) (l : List α) :
    (sortBy le key l).filter p = sortBy le key (l.filter p) := by
  induction l with
  | nil => rfl
  | cons x l ih =>
    simp only [sortBy]
    rw [insertBy_filter le key htr p x _ (sortBy_sorted le key htot htr l), ih, List.filter_cons]
    split <;> simp [sortBy]

end

/-- Sorting by a key that a map preserves commutes with the map. -/
theorem sortBy_map {α β γ : Type} (le : β → β → Bool) (key : α → β) (key' : γ → β) (f : α → γ)
    (h : ∀ a, key' (f a) = key a) (l : List α) : (sortBy le key l).map f = sortBy le key' (l.map f) := by
  have hi : ∀ x l, (insertBy le key x l).map f = insertBy le key' (f x) (l.map f) := by
    intro x l
    induction l with
    | nil => rfl
    | cons y l ih =>
      simp only [insertBy, List.map_cons, h]
      split <;> simp [ih]
  induction l with
  | nil => rfl
  | cons x l ih => simp only [sortBy, List.map_cons, hi, ih]

theorem bytesLe_total (a b : Bytes) (h : bytesLe a b = false) : bytesLe b a = true := by
  induction a generalizing b with
  | nil => simp [bytesLe] at h
  | cons x a ih =>
    cases b with
    | nil => rfl
    | cons y b =>
      simp only [bytesLe, Bool.or_eq_false_iff, Bool.and_eq_false_iff, decide_eq_false_iff_not, beq_eq_false_iff_ne] at h
      simp only [bytesLe, Bool.or_eq_true, Bool.and_eq_true, decide_eq_true_eq, beq_iff_eq]
      rcases h.2 with h2 | h2
      · left; omega
      · by_cases hxy : x.toNat = y.toNat
        · right; exact ⟨hxy.symm, ih b h2⟩
        · left; omega

theorem bytesLe_trans (a b c : Bytes) (h1 : bytesLe a b = true) (h2 : bytesLe b c = true) : bytesLe a c = true := by
  induction a generalizing b c with
  | nil => rfl
  | cons x a ih =>
    cases b with
    | nil => simp [bytesLe] at h1
    | cons y b =>
      cases c with
      | nil => simp [bytesLe] at h2
      | cons z c =>
        simp only [bytesLe, Bool.or_eq_true, Bool.and_eq_true, decide_eq_true_eq, beq_iff_eq] at *
        rcases h1 with h1 | ⟨h1, h1'⟩ <;> rcases h2 with h2 | ⟨h2, h2'⟩
        · left; omega
        · left; omega
        · left; omega
        · right; exact ⟨by omega, ih b c h1' h2'⟩

theorem bytesLe_antisymm (a b : Bytes) (h1 : bytesLe a b = true) (h2 : bytesLe b a = true) : a = b := by
  induction a generalizing b with
  | nil =>
    cases b with
    | nil => rfl
    | cons => simp [bytesLe] at h2
  | cons x a ih =>
    cases b with
    | nil => simp [bytesLe] at h1
    | cons y b =>
      simp only [bytesLe, Bool.or_eq_true, Bool.and_eq_true, decide_eq_true_eq, beq_iff_eq] at *
      have hxy : x.toNat = y.toNat := by omega
      have : x = y := UInt8.toNat_inj.1 hxy
      subst this
      rw [ih b (by simpa using h1) (by simpa using h2)]

theorem tagsLe_total (a b : TagSet) (h : tagsLe a b = false) : tagsLe b a = true := by
  induction a generalizing b with
  | nil => simp [tagsLe] at h
  | cons x a ih =>
    cases b with
    | nil => rfl
    | cons y b =>
      simp only [tagsLe, Bool.or_eq_false_iff, Bool.and_eq_false_iff, decide_eq_false_iff_not, beq_eq_false_iff_ne] at h
      simp only [tagsLe, Bool.or_eq_true, Bool.and_eq_true, decide_eq_true_eq, beq_iff_eq]
      by_cases e1 : x.cls.bits = y.cls.bits
      · right
        refine ⟨e1.symm, ?_⟩
        by_cases e2 : x.num = y.num
        · right
          refine ⟨e2.symm, ih b ?_⟩
          rcases h.2 with h2 | ⟨_, h2⟩
          · exact absurd e1 h2
          · rcases h2 with h2 | h2
            · exact absurd e2 h2
            · exact h2
        · left
          rcases h.2 with h2 | ⟨h2, _⟩
          · exact absurd e1 h2
          · omega
      · left; omega

theorem tagsLe_trans (a b c : TagSet) (h1 : tagsLe a b = true) (h2 : tagsLe b c = true) : tagsLe a c = true := by
  induction a generalizing b c with
  | nil => rfl
  | cons x a ih =>
    cases b with
    | nil => simp [tagsLe] at h1
    | cons y b =>
      cases c with
      | nil => simp [tagsLe] at h2
      | cons z c =>
        simp only [tagsLe, Bool.or_eq_true, Bool.and_eq_true, decide_eq_true_eq, beq_iff_eq] at *
        rcases h1 with h1 | ⟨h1, h1'⟩ <;> rcases h2 with h2 | ⟨h2, h2'⟩
        · left; omega
        · left; omega
        · left; omega
        · right
          refine ⟨by omega, ?_⟩
          rcases h1' with h1' | ⟨h1', h1''⟩ <;> rcases h2' with h2' | ⟨h2', h2''⟩
          · left; omega
          · left; omega
          · left; omega
          · right; exact ⟨by omega, ih b c h1'' h2''⟩

end Asn1
end Verif
