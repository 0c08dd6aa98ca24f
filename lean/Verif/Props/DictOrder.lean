import Verif.Props.DictBounds

/-!
# What matters of a caller's dictionary of open types

C83: neither the order of its entries nor those that say what the dictionaries of the package say; passing two dictionaries
merged is passing one where the other is registered; and to classes without open type fields it does not matter at all.
-/

namespace Verif
namespace Props
namespace DictOrder

open Asn1 Py Spec.OpenTypes
open Open (Reached decodeOpen)
open OpenTypes (IsDict selfContained isMap isMap_iff registry_iff resolution_unique)

/-- Dictionaries with the same entries say the same about every key. -/
theorem resolution_congr {dict dict' : List (Val × Ty)} (he : ∀ k u, (k, u) ∈ dict ↔ (k, u) ∈ dict') {D R : Asn1.Registry}
    (h : Resolution dict D R) : Resolution dict' D R := by
  intro m k u
  rw [h m k u]
  simp only [Resolves, he]

/-- C83: dictionaries with the same entries, in whatever order they were put in, have the same effect. -/
theorem order (dict dict' : List (Val × Ty)) (hd : IsDict dict) (hd' : IsDict dict')
    (he : ∀ k u, (k, u) ∈ dict ↔ (k, u) ∈ dict') (D : Asn1.Registry) (t : Ty) (b : Bytes) :
    Asn1.decodeWith ⟨dict, true⟩ D t b = Asn1.decodeWith ⟨dict', true⟩ D t b := by
  simp only [Asn1.decodeWith, Bool.or_true, if_true]
  rw [resolution_unique (resolution_congr he (registry_iff hd true D)) (registry_iff hd' true D)]

/-- C83: the same with the BER decoder. -/
theorem order_ber (dict dict' : List (Val × Ty)) (hd : IsDict dict) (hd' : IsDict dict')
    (he : ∀ k u, (k, u) ∈ dict ↔ (k, u) ∈ dict') (D : Asn1.Registry) (t : Ty) (b : Bytes) :
    Asn1.BerOpen.decodeWith ⟨dict, true⟩ D t b = Asn1.BerOpen.decodeWith ⟨dict', true⟩ D t b := by
  simp only [Asn1.BerOpen.decodeWith, Bool.or_true, if_true]
  rw [resolution_unique (resolution_congr he (registry_iff hd true D)) (registry_iff hd' true D)]

/-- `merged` is Python's `{**extra, **dict}`. -/
def Merged (extra dict merged : List (Val × Ty)) : Prop :=
  ∀ k u, (k, u) ∈ merged ↔ (k, u) ∈ dict ∨ ((∀ u', (k, u') ∉ dict) ∧ (k, u) ∈ extra)

theorem resolution_merged {extra dict merged : List (Val × Ty)} (hm : Merged extra dict merged) {D R S : Asn1.Registry}
    (hR : Resolution extra D R) (hS : Resolution dict R S) : Resolution merged D S := by
  intro m k u
  rw [hS m k u]
  simp only [Resolves, hR m k u, hm k]
  constructor
  · rintro (h | ⟨h, h' | ⟨h', h''⟩⟩)
    · exact .inl (.inl h)
    · exact .inl (.inr ⟨h, h'⟩)
    · refine .inr ⟨?_, h''⟩
      rintro u' (g | ⟨_, g⟩)
      · exact h u' g
      · exact h' u' g
  · rintro ((h | ⟨h, h'⟩) | ⟨h, h'⟩)
    · exact .inl h
    · exact .inr ⟨h, .inl h'⟩
    · refine .inr ⟨fun u' g => h u' (.inl g), .inr ⟨fun u' g => ?_, h'⟩⟩
      exact h u' (.inr ⟨fun u'' g' => h u'' (.inl g'), g⟩)

/-- C83: passing `{**extra, **dict}` is passing `dict` where the entries of `extra` have been put into all dictionaries of the
classes. -/
theorem merged (extra dict both : List (Val × Ty)) (hd : IsDict dict) (hb : IsDict both) (hm : Merged extra dict both)
    (D R : Asn1.Registry) (hR : Resolution extra D R) (t : Ty) (b : Bytes) :
    Asn1.decodeWith ⟨both, true⟩ D t b = Asn1.decodeWith ⟨dict, true⟩ R t b := by
  simp only [Asn1.decodeWith, Bool.or_true, if_true]
  rw [resolution_unique (resolution_merged hm hR (registry_iff hd true R)) (registry_iff hb true D)]

/-- C83: the same with the BER decoder. -/
theorem merged_ber (extra dict both : List (Val × Ty)) (hd : IsDict dict) (hb : IsDict both) (hm : Merged extra dict both)
    (D R : Asn1.Registry) (hR : Resolution extra D R) (t : Ty) (b : Bytes) :
    Asn1.BerOpen.decodeWith ⟨both, true⟩ D t b = Asn1.BerOpen.decodeWith ⟨dict, true⟩ R t b := by
  simp only [Asn1.BerOpen.decodeWith, Bool.or_true, if_true]
  rw [resolution_unique (resolution_merged hm hR (registry_iff hd true R)) (registry_iff hb true D)]

/-- A dictionary that says nothing else than the dictionary `m`. -/
def PartOf (D : Asn1.Registry) (m : Py.Ident) (dict : List (Val × Ty)) : Prop := ∀ k u, (k, u) ∈ dict → D m k = some u

theorem part_same {D : Asn1.Registry} {m : Py.Ident} {dict : List (Val × Ty)} (hd : IsDict dict) (hp : PartOf D m dict) :
    ∀ m' k, isMap m m' = true → Options.registry ⟨dict, true⟩ D m' k = D m' k := by
  intro m' k h
  obtain rfl := isMap_iff.1 h
  apply Option.ext
  intro u
  rw [registry_iff hd true D m k u]
  constructor
  · rintro (h | h)
    · exact hp k u h
    · exact h.2
  · intro h
    by_cases hk : ∃ u', (k, u') ∈ dict
    · obtain ⟨u', hu⟩ := hk
      have := (hp k u' hu).symm.trans h
      exact .inl (Option.some.inj this ▸ hu)
    · exact .inr ⟨fun u' hu => hk ⟨u', hu⟩, h⟩

/-- C83: passing a part of the dictionary that all open type fields of the class use changes nothing, if the types in this
dictionary do not use others. -/
theorem own_part (s : State) (hs : Reached s) (m : Py.Ident) (hm : m ∈ selfContained) (t : Ty)
    (ht : t.each (Ty.useOnly (isMap m)) = true) (dict : List (Val × Ty)) (hd : IsDict dict) (hp : PartOf s.get m dict)
    (b : Bytes) : Asn1.decodeWith ⟨dict, true⟩ s.get t b = decodeOpen s t b := by
  simp only [Asn1.decodeWith, Bool.or_true, if_true, decodeOpen]
  refine odecode_use (part_same hd hp) ?_ _ t b ht
  intro m' k u h hk
  rw [part_same hd hp m' k h] at hk
  obtain rfl := isMap_iff.1 h
  have := List.all_eq_true.1 (List.all_eq_true.1 OpenTypes.contained_table m hm) _ (Open.reached_written hs hk)
  simpa using this

/-- C83: the same with the BER decoder. -/
theorem own_part_ber (s : State) (hs : Reached s) (m : Py.Ident) (hm : m ∈ selfContained) (t : Ty)
    (ht : t.each (Ty.useOnly (isMap m)) = true) (dict : List (Val × Ty)) (hd : IsDict dict) (hp : PartOf s.get m dict)
    (b : Bytes) : Asn1.BerOpen.decodeWith ⟨dict, true⟩ s.get t b = BerOpen.decodeOpen s t b := by
  simp only [Asn1.BerOpen.decodeWith, Bool.or_true, if_true, BerOpen.decodeOpen]
  refine Asn1.BerOpen.odecode_use (part_same hd hp) ?_ _ t b ht
  intro m' k u h hk
  rw [part_same hd hp m' k h] at hk
  obtain rfl := isMap_iff.1 h
  have := List.all_eq_true.1 (List.all_eq_true.1 OpenTypes.contained_table m hm) _ (Open.reached_written hs hk)
  simpa using this

/-- C83: for a class without open type fields two dictionaries, and two states of the dictionaries of the package, have the
same effect. -/
theorem no_fields (t : Ty) (ht : t.each (Ty.useOnly (fun _ => false)) = true) (dict dict' : List (Val × Ty))
    (D D' : Asn1.Registry) (b : Bytes) :
    Asn1.decodeWith ⟨dict, true⟩ D t b = Asn1.decodeWith ⟨dict', true⟩ D' t b := by
  simp only [Asn1.decodeWith, Bool.or_true, if_true]
  exact odecode_use (p := fun _ => false) (fun _ _ h => absurd h (by simp)) (fun _ _ _ h => absurd h (by simp)) _ t b ht

/-- C83: the same with the BER decoder. -/
theorem no_fields_ber (t : Ty) (ht : t.each (Ty.useOnly (fun _ => false)) = true) (dict dict' : List (Val × Ty))
    (D D' : Asn1.Registry) (b : Bytes) :
    Asn1.BerOpen.decodeWith ⟨dict, true⟩ D t b = Asn1.BerOpen.decodeWith ⟨dict', true⟩ D' t b := by
  simp only [Asn1.BerOpen.decodeWith, Bool.or_true, if_true]
  exact Asn1.BerOpen.odecode_use (p := fun _ => false) (fun _ _ h => absurd h (by simp)) (fun _ _ _ h => absurd h (by simp))
    _ t b ht

/-! ## Concrete cases -/

/-- A dictionary with two entries, and the same the other way round. -/
def two : List (Val × Ty) := [(.oid [1, 2, 3], Open.algorithmIdentifier), (.oid [1, 2, 4], Rfc5280.Validity.call.ty)]

example (D : Asn1.Registry) (t : Ty) (b : Bytes) :
    Asn1.decodeWith ⟨two, true⟩ D t b = Asn1.decodeWith ⟨two.reverse, true⟩ D t b :=
  order two two.reverse (by simp [IsDict, two]) (by simp [IsDict, two]) (by simp) D t b

/-- The second entry replaces one of the other dictionary. -/
example : Merged [(.oid [1, 2, 4], Open.algorithmIdentifier), (.oid [1, 2, 3], Open.algorithmIdentifier)]
    [(.oid [1, 2, 4], Rfc5280.Validity.call.ty)] two := by
  intro k u
  simp only [two, List.mem_cons, List.not_mem_nil, or_false, Prod.mk.injEq]
  constructor
  · rintro (⟨rfl, rfl⟩ | ⟨rfl, rfl⟩)
    · exact .inr ⟨by simp, .inr ⟨rfl, rfl⟩⟩
    · exact .inl ⟨rfl, rfl⟩
  · rintro (⟨rfl, rfl⟩ | ⟨h, ⟨rfl, rfl⟩ | ⟨rfl, rfl⟩⟩)
    · exact .inr ⟨rfl, rfl⟩
    · exact absurd ⟨rfl, rfl⟩ (h _)
    · exact .inl ⟨rfl, rfl⟩

/-- Part of the algorithm dictionary, once rfc4055 has been imported. -/
example : ∃ s dict, Reached s ∧ dict ≠ [] ∧ IsDict dict ∧ PartOf s.get (Py.map 3 "rfc5280.algorithmIdentifierMap") dict := by
  obtain ⟨s, h1, h2⟩ := Open.example_reached
  have h3 : ((importAll Package.modules 130 [Rfc4055.asModule.id] .start).bind (fun s =>
      s.get (Py.map 3 "rfc5280.algorithmIdentifierMap") (.oid [1, 2, 840, 113549, 1, 1, 10]))).isSome = true := by decide +kernel
  rw [h1, Option.bind_some] at h3
  obtain ⟨u, hu⟩ := Option.isSome_iff_exists.1 h3
  refine ⟨s, [(.oid [1, 2, 840, 113549, 1, 1, 10], u)], h2, by simp, by simp [IsDict], fun k u' h => ?_⟩
  simp only [List.mem_cons, List.not_mem_nil, or_false, Prod.mk.injEq] at h
  rw [h.1, h.2]
  exact hu

example : Rfc5280.Validity.call.ty.each (Ty.useOnly (fun _ => false)) = true := by decide +kernel

end DictOrder
end Props
end Verif
