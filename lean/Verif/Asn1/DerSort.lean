import Verif.Asn1.DerPrim
import Verif.Asn1.DerOk
import Verif.Asn1.Roundtrip

/-! # The order of SET and SET OF elements -/

namespace Verif
namespace Asn1

open Der

/-! ## SET OF -/

theorem notAfter_nil_right : ∀ a : Octets, notAfter a [] ↔ a = List.replicate a.length 0
  | [] => by simp [notAfter]
  | x :: a => by simp [notAfter, notAfter_nil_right a, List.replicate_succ]

theorem bytesLe_zeros (n : Nat) : ∀ b : Octets, n ≤ b.length → bytesLe (List.replicate n 0) b = true := by
  induction n with
  | zero => intro b _; cases b <;> rfl
  | succ n ih =>
    intro b hb
    cases b with
    | nil => simp at hb
    | cons y b =>
      simp only [List.replicate_succ, bytesLe, Bool.or_eq_true, Bool.and_eq_true, decide_eq_true_eq, beq_iff_eq]
      have hz : (0 : UInt8).toNat = 0 := rfl
      rw [hz]
      by_cases h : y.toNat = 0
      · right; exact ⟨h.symm, ih b (by simpa using hb)⟩
      · left; omega

/-- Comparing padded octets. -/
theorem bytesLe_ljust : ∀ (n : Nat) (a b : Octets), a.length ≤ n → b.length ≤ n →
    (bytesLe (ljust n a) (ljust n b) = true ↔ notAfter a b)
  | n, [], b, _, hb => by
    simp only [notAfter, iff_true]
    have : ljust n [] = List.replicate n 0 := by simp [ljust]
    rw [this]
    apply bytesLe_zeros
    simp [ljust]; omega
  | 0, a :: as, _, ha, _ => by simp at ha
  | n + 1, a :: as, [], ha, _ => by
    have ih := bytesLe_ljust n as [] (by simpa using ha) (by simp)
    have e1 : ljust (n + 1) (a :: as) = a :: ljust n as := by
      simp [ljust]
    have e2 : ljust (n + 1) [] = 0 :: ljust n [] := by
      simp [ljust, List.replicate_succ]
    have hz : (0 : UInt8).toNat = 0 := rfl
    rw [e1, e2]
    simp only [bytesLe, notAfter, Bool.or_eq_true, Bool.and_eq_true, decide_eq_true_eq, beq_iff_eq, hz, ih]
    constructor
    · rintro (h | ⟨h, h2⟩)
      · omega
      · exact ⟨uint8_ext _ _ h, h2⟩
    · rintro ⟨h, h2⟩
      right; subst h; exact ⟨rfl, h2⟩
  | n + 1, a :: as, b :: bs, ha, hb => by
    have ih := bytesLe_ljust n as bs (by simpa using ha) (by simpa using hb)
    have e1 : ljust (n + 1) (a :: as) = a :: ljust n as := by
      simp [ljust]
    have e2 : ljust (n + 1) (b :: bs) = b :: ljust n bs := by
      simp [ljust]
    rw [e1, e2]
    simp only [bytesLe, notAfter, Bool.or_eq_true, Bool.and_eq_true, decide_eq_true_eq, beq_iff_eq, ih]
    constructor
    · rintro (h | ⟨h, h2⟩)
      · exact Or.inl h
      · exact Or.inr ⟨UInt8.toNat_inj.1 h, h2⟩
    · rintro (h | ⟨h, h2⟩)
      · exact Or.inl h
      · right; subst h; exact ⟨rfl, h2⟩

theorem sortChunks_pairwise {α : Type} (ps : List (Bytes × α)) :
    (sortChunks ps).Pairwise (fun p q => notAfter p.1 q.1) := by
  have h := sortBy_sorted bytesLe (fun p : Bytes × α => ljust (maxLen (ps.map Prod.fst)) p.1) bytesLe_total bytesLe_trans ps
  have hp := sortBy_perm bytesLe (fun p : Bytes × α => ljust (maxLen (ps.map Prod.fst)) p.1) ps
  refine List.Pairwise.imp_of_mem ?_ h
  intro p q hpm hqm hle
  have hlen : ∀ r ∈ sortBy bytesLe (fun p : Bytes × α => ljust (maxLen (ps.map Prod.fst)) p.1) ps,
      r.1.length ≤ maxLen (ps.map Prod.fst) := by
    intro r hr
    exact le_maxLen (List.mem_map_of_mem (hp.mem_iff.1 hr))
  exact (bytesLe_ljust _ _ _ (hlen p hpm) (hlen q hqm)).1 hle

/-! ## SET -/

/-- The octets begin with the outermost tag of the tag set. -/
def leads (ts : TagSet) (b : Bytes) : Prop :=
  ∃ t k r, ts.getLast? = some t ∧ b = encTag t.cls k t.num ++ r

theorem wrap_leads (isC : Bool) : ∀ (ts : TagSet) (c b : Bytes), ts ≠ [] → wrap isC ts c = some b → leads ts b
  | [], _, _, h, _ => absurd rfl h
  | [t], c, b, _, h => by
    simp only [wrap, tlv, Option.bind_eq_some_iff, Option.map_eq_some_iff, Option.some.injEq] at h
    obtain ⟨e, ⟨l, _, rfl⟩, rfl⟩ := h
    exact ⟨t, _, _, rfl, rfl⟩
  | t :: u :: ts, c, b, _, h => by
    rw [wrap, Option.bind_eq_some_iff] at h
    obtain ⟨e, _, h⟩ := h
    obtain ⟨x, k, r, h1, h2⟩ := wrap_leads isC (u :: ts) e b (by simp) h
    exact ⟨x, k, r, by rw [List.getLast?_cons_cons]; exact h1, h2⟩

theorem put_leads {c : Bool} {ts : TagSet} {x b : Bytes} (h : (if c then some [] else wrap true ts x) = some b)
    (hb : b ≠ []) (ht : ts ≠ []) : leads ts b := by
  split at h
  · simp only [Option.some.injEq] at h; exact absurd h.symm hb
  · exact wrap_leads _ _ _ _ ht h

theorem enc_leads (ine : Bool) (t : Ty) (v : Val) (b : Bytes) (he : enc ine t v = some b) (hb : b ≠ [])
    (ht : t.tags ≠ []) : leads t.tags b := by
  cases t with
  | prim k a =>
    simp only [enc, Option.bind_eq_some_iff] at he
    obtain ⟨c, _, h⟩ := he
    exact wrap_leads _ _ _ _ ht h
  | seq s a cs =>
    cases v <;> simp only [enc] at he <;> try cases he
    split at he
    · split at he
      · cases he
      · exact put_leads he hb ht
    · cases he
  | of s a t =>
    cases v <;> simp only [enc] at he <;> try cases he
    split at he
    · split at he
      · cases he
      · exact put_leads he hb ht
    · cases he
  | choice a cs =>
    cases v <;> simp only [enc] at he <;> try cases he
    split at he
    · cases he
    · split at he
      · simp only [Option.some.injEq] at he; exact absurd he.symm hb
      · exact wrap_leads _ _ _ _ ht he
  | bad => cases v <;> simp [enc] at he

theorem encAlt_getD (ine : Bool) : ∀ (cs : Comps) (i : Nat) (v : Val) (b : Bytes), encAlt ine cs i v = some b →
    ∃ f t, cs.get? i = some (f, t) ∧ enc ine t v = some b
  | .nil, _, _, _, h => by simp [encAlt] at h
  | .cons f t cs, 0, v, b, h => ⟨f, t, rfl, by simpa [encAlt] using h⟩
  | .cons f t cs, i + 1, v, b, h => by
    obtain ⟨f, t, h1, h2⟩ := encAlt_getD ine cs i v b (by simpa [encAlt] using h)
    exact ⟨f, t, by simpa [Comps.get?] using h1, h2⟩

theorem setKey_leads (ine : Bool) (t : Ty) (v : Val) (b : Bytes) (he : enc ine t v = some b) (hb : b ≠ [])
    (hk : setKey t v ≠ []) : leads (setKey t v) b := by
  cases t with
  | choice a cs =>
    cases v with
    | alt i v =>
      by_cases ha : a.tags = []
      · simp only [enc] at he
        cases hc : encAlt ine cs i v with
        | none => simp [hc] at he
        | some c =>
          obtain ⟨f, t, h1, h2⟩ := encAlt_getD ine cs i v c hc
          simp only [hc, ha, wrap] at he
          simp only [setKey, ha, List.isEmpty_nil, if_true, h1] at hk ⊢
          have : c = b := by
            split at he
            · simp only [Option.some.injEq] at he; exact absurd he.symm hb
            · simpa using he
          subst this
          exact enc_leads ine t v c h2 hb hk
      · have : setKey (.choice a cs) (.alt i v) = a.tags := by simp [setKey, ha]
        rw [this] at hk ⊢
        exact enc_leads ine (.choice a cs) _ b he hb hk
    | _ => simp [enc] at he
  | _ => exact enc_leads ine _ v b he hb hk

theorem Comps.get?_mem : ∀ (cs : Comps) (i : Nat) (f : Field) (t : Ty), cs.get? i = some (f, t) → (f, t) ∈ cs.toList
  | .nil, _, _, _, h => by simp [Comps.get?] at h
  | .cons g u cs, 0, f, t, h => by simp [Comps.get?] at h; simp [Comps.toList, h]
  | .cons g u cs, i + 1, f, t, h => by
    simp only [Comps.get?] at h
    simp [Comps.toList, Comps.get?_mem cs i f t h]

theorem Comps.get?_of_validAlt : ∀ (cs : Comps) (i : Nat) (v : Val), cs.validAlt i v = true → ∃ p, cs.get? i = some p
  | .nil, _, _, h => by simp [Comps.validAlt] at h
  | .cons f t cs, 0, _, _ => ⟨_, rfl⟩
  | .cons f t cs, i + 1, v, h => by
    simpa [Comps.get?] using Comps.get?_of_validAlt cs i v (by simpa [Comps.validAlt] using h)

theorem setKey_mem (t : Ty) (v : Val) (hv : t.valid v = true) : setKey t v ∈ t.keys := by
  cases t with
  | choice a cs =>
    cases v with
    | alt i v =>
      simp only [setKey, Ty.keys]
      split
      · simp only [Ty.valid] at hv
        obtain ⟨⟨f, t⟩, h⟩ := Comps.get?_of_validAlt cs i v hv
        simp only [h]
        exact List.mem_map.2 ⟨_, Comps.get?_mem cs i f t h, rfl⟩
      · simp
    | _ => simp [Ty.valid] at hv
  | _ => simp [setKey, Ty.keys]

theorem sameOrder_symm (a b : TagSet) : sameOrder a b = sameOrder b a := by
  simp only [sameOrder, Bool.or_comm]

theorem Cls.bits_inj {a b : Cls} (h : a.bits = b.bits) : a = b := by
  cases a <;> cases b <;> simp [Cls.bits] at h <;> rfl

theorem classBits_bits (c : Cls) : classBits c = 64 * c.bits := by cases c <;> rfl

theorem outerBefore_tagBefore (a b : TagSet) (x y : Bytes) (ha : leads a x) (hb : leads b y)
    (h : outerBefore a b = true) : tagBefore x y := by
  obtain ⟨t, k, r, h1, rfl⟩ := ha
  obtain ⟨u, k', r', h2, rfl⟩ := hb
  simp only [outerBefore, h1, h2, Bool.or_eq_true, Bool.and_eq_true, decide_eq_true_eq, beq_iff_eq] at h
  refine ⟨t.cls, k, t.num, r, u.cls, k', u.num, r', ⟨_, (identifier_iff _ _ _ _).2 rfl, rfl⟩,
    ⟨_, (identifier_iff _ _ _ _).2 rfl, rfl⟩, ?_⟩
  rcases h with h | ⟨h, h3⟩
  · left; rw [classBits_bits, classBits_bits]; omega
  · right; exact ⟨Cls.bits_inj h, h3⟩

theorem outerBefore_ne (a b : TagSet) (h : outerBefore a b = true) : a ≠ [] ∧ b ≠ [] := by
  unfold outerBefore at h
  split at h
  · rename_i h1 h2
    constructor
    · rintro rfl; simp at h1
    · rintro rfl; simp at h2
  · cases h

theorem sameOrder_ne (a b : TagSet) (h : sameOrder a b = true) : a ≠ [] ∧ b ≠ [] := by
  simp only [sameOrder, Bool.or_eq_true, Bool.and_eq_true] at h
  rcases h with h | h
  · exact outerBefore_ne a b h.1
  · exact (outerBefore_ne b a h.1).symm

/-- The encoder's order of SET components is the order of their tags. -/
theorem sorted_tagBefore (ps : List (TagSet × Bytes))
    (h1 : ps.Pairwise (fun p q => sameOrder p.1 q.1 = true))
    (h2 : ∀ p ∈ ps, p.2 ≠ [] → p.1 ≠ [] → leads p.1 p.2) :
    ((sortBy tagsLe Prod.fst ps).filter (fun p => !p.2.isEmpty)).Pairwise (fun p q => tagBefore p.2 q.2) := by
  have hp := sortBy_perm tagsLe Prod.fst ps
  have hs := sortBy_sorted tagsLe (Prod.fst : TagSet × Bytes → TagSet) tagsLe_total tagsLe_trans ps
  have ho : (sortBy tagsLe Prod.fst ps).Pairwise (fun p q => sameOrder p.1 q.1 = true) :=
    hp.symm.pairwise h1 (fun {x y} h => by rw [sameOrder_symm]; exact h)
  have hb := (List.Pairwise.and hs ho).filter (fun p => !p.2.isEmpty)
  refine List.Pairwise.imp_of_mem ?_ hb
  intro p q hpm hqm h
  obtain ⟨hle, hso⟩ := h
  obtain ⟨hpm, hpe⟩ := List.mem_filter.1 hpm
  obtain ⟨hqm, hqe⟩ := List.mem_filter.1 hqm
  obtain ⟨n1, n2⟩ := sameOrder_ne _ _ hso
  refine outerBefore_tagBefore p.1 q.1 _ _ (h2 p (hp.mem_iff.1 hpm) (by simpa using hpe) n1)
    (h2 q (hp.mem_iff.1 hqm) (by simpa using hqe) n2) ?_
  simp only [sameOrder, Bool.or_eq_true, Bool.and_eq_true, Bool.not_eq_true'] at hso
  rcases hso with h | h
  · exact h.1
  · rw [h.2] at hle; cases hle

end Asn1
end Verif
