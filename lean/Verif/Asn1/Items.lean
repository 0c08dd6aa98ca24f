import Verif.Asn1.TlvLemmas

/-! # Taking elements off a contents string -/

namespace Verif
namespace Asn1

theorem items_uncons {b : Bytes} {x : TLV} (h : IsTLV b x) (c : Bytes) (xs : List TLV) (hc : items (b ++ c) = some xs) :
    ∃ ys, xs = x :: ys ∧ items c = some ys := by
  obtain ⟨hne, hr⟩ := h
  cases b with
  | nil => exact absurd rfl hne
  | cons y b =>
    have hr := hr c
    unfold items at *
    simp only [List.cons_append, List.length_cons] at *
    rw [parseTLVs, hr] at hc
    simp only [] at hc
    rw [parseTLVs_fuel c _ c.length (by simp) (Nat.le_refl _)] at hc
    cases hp : parseTLVs c.length c with
    | none => simp [hp] at hc
    | some ys =>
      simp only [hp, Option.some.injEq] at hc
      exact ⟨ys, hc.symm, rfl⟩

end Asn1
end Verif
