import Verif.Props.BerOpenWith

/-!
# Sizes and streams with a caller's dictionary of open types

C56 and C80: what C65, C72 and C76 say about open types holds with any dictionary of classes of the package.
-/

namespace Verif
namespace Props
namespace DictBounds

open Asn1 Py Spec.OpenTypes
open Open (Reached ungoverned)
open OpenTypes (IsDict Usable)

theorem steady (s : State) (hs : Reached s) (c : String × Ty) (hc : c ∈ Package.types) (dict : List (Val × Ty))
    (hu : Usable dict) : Streams.Steady (Asn1.decodeWith ⟨dict, true⟩ s.get c.2) := by
  constructor
  · intro b w r h
    simp only [Asn1.decodeWith, Bool.or_true, if_true] at h
    obtain ⟨v, hv, _⟩ := odecode_sound _ _ c.2 b w r h
    exact Codec.decode_shorter c.2 b r v hv
  · intro b w r z h
    rw [← OpenTypes.depth s hs c hc dict hu b ((b ++ z).length + 1) (by simp only [List.length_append]; omega)] at h
    simp only [Asn1.decodeWith, Bool.or_true, if_true]
    simp only [odecode] at h ⊢
    cases hr : readTLV b with
    | none => simp [hr] at h
    | some p =>
      obtain ⟨x, r'⟩ := p
      obtain ⟨_, _, h3, _⟩ := readTLV_suffix b x r' hr
      simp only [hr] at h
      rw [h3 z]
      simp only []
      split at h
      · simp at h
      · rename_i w' hw
        simp only [Option.some.injEq, Prod.mk.injEq] at h
        rw [h.1, h.2]

/-- C56: octets after a complete encoding are returned untouched. -/
theorem append (s : State) (hs : Reached s) (c : String × Ty) (hc : c ∈ Package.types) (dict : List (Val × Ty))
    (hu : Usable dict) (b r z : Bytes) (w : OVal) (h : Asn1.decodeWith ⟨dict, true⟩ s.get c.2 b = some (w, r)) :
    Asn1.decodeWith ⟨dict, true⟩ s.get c.2 (b ++ z) = some (w, r ++ z) :=
  (steady s hs c hc dict hu).append b w r z h

/-- C56: in a reader of messages (C72) it makes no difference in what pieces the octets arrive. -/
theorem any_pieces (s : State) (hs : Reached s) (c : String × Ty) (hc : c ∈ Package.types) (dict : List (Val × Ty))
    (hu : Usable dict) (ps qs : List Bytes) (he : ps.flatten = qs.flatten) :
    Stream.listen (Asn1.decodeWith ⟨dict, true⟩ s.get c.2) ps = Stream.listen (Asn1.decodeWith ⟨dict, true⟩ s.get c.2) qs :=
  Streams.any_pieces_of (steady s hs c hc dict hu) ps qs he

theorem bounded {s : State} (hs : Reached s) {dict : List (Val × Ty)} (hp : ∀ e ∈ dict, ∃ c ∈ Package.types, c.2 = e.2)
    (fl : Bool) (m : Py.Ident) (k : Val) (u : Ty) (h : Options.registry ⟨dict, fl⟩ s.get m k = some u) :
    u.each (Ty.within 10) = true ∧ u.setsOk = true ∧ u.each Ty.openOk = true := by
  simp only [Options.registry] at h
  split at h
  · rename_i u' hf
    cases h
    obtain ⟨e, he, h2⟩ := Option.map_eq_some_iff.1 hf
    obtain ⟨c, hc, h3⟩ := hp _ (List.mem_of_find?_eq_some he)
    rw [← h2, ← h3]
    exact ⟨List.all_eq_true.1 Size.fits_table c hc, List.all_eq_true.1 Reading.sets_ok c hc, Open.openOk_of_mem hc⟩
  · have hw := Open.reached_written hs h
    have h1 := List.all_eq_true.1 Size.written_table _ hw
    rw [Bool.and_eq_true] at h1
    exact ⟨h1.1, h1.2, List.all_eq_true.1 Open.registered_openOk _ hw⟩

/-- C56: what is returned is at most ten times as large as the octets read (sizes as in C65), whatever the dictionary and
however deep open types are nested. -/
theorem size (s : State) (hs : Reached s) (c : String × Ty) (hc : c ∈ Package.types) (dict : List (Val × Ty))
    (hp : ∀ e ∈ dict, ∃ c ∈ Package.types, c.2 = e.2) (b r : Bytes) (v : OVal)
    (h : Asn1.decodeWith ⟨dict, true⟩ s.get c.2 b = some (v, r)) : v.size + 10 * r.length ≤ 10 * b.length := by
  simp only [Asn1.decodeWith, Bool.or_true, if_true] at h
  exact odecode_size (by decide) (bounded hs hp true) _ c.2 b v r (List.all_eq_true.1 Size.fits_table c hc)
    (List.all_eq_true.1 Reading.sets_ok c hc) (Open.openOk_of_mem hc) h

/-- C80: the same with the BER decoder. -/
theorem ber_size (s : State) (hs : Reached s) (c : String × Ty) (hc : c ∈ Package.types) (dict : List (Val × Ty))
    (hp : ∀ e ∈ dict, ∃ c ∈ Package.types, c.2 = e.2) (b r : Bytes) (v : OVal)
    (h : Asn1.BerOpen.decodeWith ⟨dict, true⟩ s.get c.2 b = some (v, r)) : v.size + 10 * r.length ≤ 10 * b.length := by
  simp only [Asn1.BerOpen.decodeWith, Bool.or_true, if_true] at h
  exact Asn1.BerOpen.odecode_size (by decide) (bounded hs hp true) _ c.2 b v r (List.all_eq_true.1 Size.fits_table c hc)
    (List.all_eq_true.1 Reading.sets_ok c hc) (Open.openOk_of_mem hc) h

/-- The hypotheses are met by the dictionary of C79. -/
example : ∀ e ∈ TypedWith.own, ∃ c ∈ Package.types, c.2 = e.2 := by
  intro e he
  obtain ⟨c, hc, _, _, h⟩ := TypedWith.own_package e he
  exact ⟨c, hc, h⟩

end DictBounds
end Props
end Verif
