import Verif.Props.Typed
import Verif.Props.OpenTypes

/-!
# C79: objects assembled with typed contents, for a caller's dictionary

A program puts objects of its own types, or of classes the package does not register, into open type fields, encodes, and
decodes with `openTypes={...}`.
-/

namespace Verif
namespace Props
namespace TypedWith

open Asn1 Py Open OpenDer Spec.OpenTypes
open OpenTypes (IsDict)
open Typed (flawed flawed_table)

/-- The types in the dictionary are classes of the package, other than those C12 and C26 leave out. -/
def OfPackage (dict : List (Val × Ty)) : Prop :=
  ∀ e ∈ dict, ∃ c ∈ Package.types, c.1 ∉ Package.defective ∧ c.1 ∉ ungoverned ∧ c.2 = e.2

/-- What the theorems need of the types in the dictionary.  It can be decided for classes a program defines itself. -/
def Fit (dict : List (Val × Ty)) : Prop :=
  ∀ e ∈ dict, e.2.wf = true ∧ e.2.stable = true ∧ e.2.each Ty.openOk = true ∧ e.2.each Ty.governed = true

/-- Classes of the package are fit. -/
theorem fit_of_package {dict : List (Val × Ty)} (h : OfPackage dict) : Fit dict := by
  intro e he
  obtain ⟨c, hc, hd, hu, h⟩ := h e he
  rw [← h]
  exact ⟨Package.wf_of_mem hc hd, Package.stable_of_mem hc, openOk_of_mem hc, governed_of_mem hc hu⟩

/-- What holds of these and of all registered types. -/
def Kind (t : Ty) : Prop := t.stable = true ∧ t.each Ty.openOk = true ∧ t.each Ty.governed = true

theorem kind_of_mem {c : String × Ty} (hc : c ∈ Package.types) (hu : c.1 ∉ ungoverned) : Kind c.2 :=
  ⟨Package.stable_of_mem hc, openOk_of_mem hc, governed_of_mem hc hu⟩

/-- The fields that can be told from what they hold and whose type is in the dictionary, or in that of the class and not
one of those C12 leaves out. -/
def Sound (dict : List (Val × Ty)) (c : Content) : Prop := ((∃ u, (c.key, u) ∈ dict) ∨ c.key ∉ flawed) ∧ c.fits

theorem usual_with {s : State} (hs : Reached s) {dict : List (Val × Ty)} (hp : Fit dict) {R : Asn1.Registry}
    (hR : Resolution dict s.get R) : Closed R (Sound dict) Kind where
  governed _ h := h.2.2
  openOk _ h := h.2.1
  stable _ h := h.1
  fits _ _ _ _ _ ho := ho.2
  types t v c _ hc ho := by
    rcases (hR _ _ _).1 (Ty.fields_from t v c hc).registered with h | ⟨h1, h2⟩
    · obtain ⟨h1, h2⟩ := hp _ h
      exact ⟨h2, h1⟩
    · have hr := reached_written hs h2
      refine ⟨⟨List.all_eq_true.1 registered_stable _ hr, List.all_eq_true.1 registered_openOk _ hr,
        List.all_eq_true.1 registered_governed _ hr⟩, ?_⟩
      have := List.all_eq_true.1 flawed_table _ hr
      simp only [Bool.or_eq_true, List.contains_iff_mem] at this
      refine this.resolve_left (ho.1.resolve_left ?_)
      rintro ⟨u, hu⟩
      exact h1 u hu

/-- C79: an object whose open type fields hold objects of the types the caller's dictionary, or else that of the class, has
for them can be written, and reading what was written with this dictionary gives the same object with the same objects in its
open type fields, up to the order in SET OFs and empty collections in OPTIONAL components, whatever follows. -/
theorem roundtrip (s : State) (hs : Reached s) (dict : List (Val × Ty)) (hi : IsDict dict) (hp : Fit dict)
    (R : Asn1.Registry) (hR : Resolution dict s.get R) (c : String × Ty) (hc : c ∈ Package.types) (hd : c.1 ∉ Package.defective)
    (hu : c.1 ∉ ungoverned) (v : Val) (w : OVal) (h : Asn1.Typed R (Sound dict) false c.2 v w) (hv : c.2.valid v = true)
    (hz : c.2.weight v < Codec.maxOctets) :
    ∃ b, oencode c.2 w = some b ∧
      ∀ rest, ∃ w', decodeWith ⟨dict, true⟩ s.get c.2 (b ++ rest) = some (w', rest) ∧ Alike false c.2 w w' := by
  obtain ⟨b, _, he, _⟩ := Codec.roundtrip c hc hd v hv hz
  have hr := OpenTypes.resolution_unique (OpenTypes.registry_iff hi true s.get) hR
  have ho : Asn1.Registry.openOk R := by
    rw [← hr]
    exact OpenTypes.registry_openOk hs (fun e he => (hp e he).2.2.1) true
  obtain ⟨h1, h2⟩ := Asn1.typed_roundtrip ho (usual_with hs hp hR) h (kind_of_mem hc hu) (Package.wf_of_mem hc hd) hv he
  refine ⟨b, h1, fun rest => ?_⟩
  obtain ⟨w', h3, h4⟩ := h2 rest
  refine ⟨w', ?_, h4⟩
  simp only [decodeWith, Bool.or_true, if_true, hr]
  exact h3

/-- C79: if nothing in it can be reordered or left out, reading gives back exactly the object that was written. -/
theorem exact (s : State) (hs : Reached s) (dict : List (Val × Ty)) (hi : IsDict dict) (hp : Fit dict)
    (R : Asn1.Registry) (hR : Resolution dict s.get R) (c : String × Ty) (hc : c ∈ Package.types) (hd : c.1 ∉ Package.defective)
    (hu : c.1 ∉ ungoverned) (v : Val) (w : OVal) (h : Asn1.Typed R (Sound dict) false c.2 v w) (hv : c.2.valid v = true)
    (hz : c.2.weight v < Codec.maxOctets) (hw : w.settled false c.2 = true) :
    ∃ b, oencode c.2 w = some b ∧ ∀ rest, decodeWith ⟨dict, true⟩ s.get c.2 (b ++ rest) = some (w, rest) := by
  obtain ⟨b, h1, h2⟩ := roundtrip s hs dict hi hp R hR c hc hd hu v w h hv hz
  refine ⟨b, h1, fun rest => ?_⟩
  obtain ⟨w', h3, h4⟩ := h2 rest
  rwa [h4.eq hw] at h3

/-- C79: no two objects in which nothing can be reordered or left out have the same encoding. -/
theorem injective (s : State) (hs : Reached s) (dict : List (Val × Ty)) (hi : IsDict dict) (hp : Fit dict)
    (R : Asn1.Registry) (hR : Resolution dict s.get R) (c : String × Ty) (hc : c ∈ Package.types) (hd : c.1 ∉ Package.defective)
    (hu : c.1 ∉ ungoverned) (v₁ v₂ : Val) (w₁ w₂ : OVal) (h₁ : Asn1.Typed R (Sound dict) false c.2 v₁ w₁)
    (h₂ : Asn1.Typed R (Sound dict) false c.2 v₂ w₂) (hv₁ : c.2.valid v₁ = true) (hv₂ : c.2.valid v₂ = true)
    (hz₁ : c.2.weight v₁ < Codec.maxOctets) (hz₂ : c.2.weight v₂ < Codec.maxOctets)
    (hw₁ : w₁.settled false c.2 = true) (hw₂ : w₂.settled false c.2 = true) (he : oencode c.2 w₁ = oencode c.2 w₂) :
    w₁ = w₂ := by
  obtain ⟨b₁, e₁, d₁⟩ := exact s hs dict hi hp R hR c hc hd hu v₁ w₁ h₁ hv₁ hz₁ hw₁
  obtain ⟨b₂, e₂, d₂⟩ := exact s hs dict hi hp R hR c hc hd hu v₂ w₂ h₂ hv₂ hz₂ hw₂
  have hb : b₁ = b₂ := Option.some.inj (e₁.symm.trans (he.trans e₂))
  have h := d₁ []
  rw [hb, d₂ []] at h
  exact (Prod.mk.inj (Option.some.inj h)).1.symm

/-- C79: what is written is the encoding of the object with the encodings of the contents as octets: a reader that does not open
types gets these octets. -/
theorem plain_reader (s : State) (hs : Reached s) (dict : List (Val × Ty)) (hp : Fit dict)
    (R : Asn1.Registry) (hR : Resolution dict s.get R) (c : String × Ty) (hc : c ∈ Package.types) (hd : c.1 ∉ Package.defective)
    (hu : c.1 ∉ ungoverned) (v : Val) (w : OVal) (h : Asn1.Typed R (Sound dict) false c.2 v w) (hv : c.2.valid v = true)
    (hz : c.2.weight v < Codec.maxOctets) :
    ∃ b v', oencode c.2 w = some b ∧ (∀ rest, decode c.2 (b ++ rest) = some (v', rest)) ∧ c.2.same false v v' := by
  have G := usual_with hs hp hR
  have ht := kind_of_mem hc hu
  obtain ⟨b, v', he, h1, h2⟩ := Codec.roundtrip c hc hd v hv hz
  refine ⟨b, v', ?_, h2, h1⟩
  rw [← he]
  exact h.encEq G (governed_of_mem hc hu) (fun x hx => ⟨G.fits _ _ _ ht hx (h.oks x hx), (G.types _ _ _ ht hx (h.oks x hx)).1⟩)

/-! ## Concrete case -/

/-- A private algorithm whose parameters are an AlgorithmIdentifier. -/
def own : List (Val × Ty) := [(.oid [1, 3, 6, 1, 4, 1, 99999, 1], algorithmIdentifier)]

/-- With SHA-256 and Null, which the package registers, in it. -/
def ownObject : OVal := Typed.algorithmWith [1, 3, 6, 1, 4, 1, 99999, 1] algorithmIdentifier
  (Typed.algorithmWith [2, 16, 840, 1, 101, 3, 4, 2, 1] Py.univ.Null.call.ty (.leaf .null))

theorem own_package : OfPackage own := by
  intro e he
  simp only [own, List.mem_singleton] at he
  subst he
  exact ⟨_, Codec.Examples.alg_mem, by decide, by decide, rfl⟩

/-- C79's hypotheses are met. -/
theorem own_typed (s : State) (hs : importAll Package.modules 130 [Rfc4055.asModule.id] .start = some s) :
    Asn1.Typed (Options.registry ⟨own, true⟩ s.get) (Sound own) false algorithmIdentifier
      (algorithm [1, 3, 6, 1, 4, 1, 99999, 1] sha256Null) ownObject := by
  have hR := OpenTypes.registry_iff (dict := own) (by simp [IsDict, own]) true s.get
  have fits : ∀ c : Content, c.field = .prim .any ⟨[], .inter .nil, []⟩ → c.fits := by
    intro c h _ _
    rw [h]
    rfl
  refine Typed.algorithm_typed (u := algorithmIdentifier) (v := algorithm [2, 16, 840, 1, 101, 3, 4, 2, 1] [5, 0])
    ((hR _ _ _).2 (.inl (by simp [own]))) (by decide +kernel) (by decide +kernel) (by decide +kernel)
    ⟨.inl ⟨_, List.mem_singleton.2 rfl⟩, fits _ rfl⟩ ?_
  refine Typed.algorithm_typed (u := Py.univ.Null.call.ty) (v := .null)
    ((hR _ _ _).2 (.inr ⟨by simp [own], registered_after hs (by decide +kernel)⟩)) (by decide +kernel) (by decide +kernel)
    (by decide +kernel) ⟨.inr (by decide), fits _ rfl⟩ ?_
  have hu : Py.univ.Null.call.ty = .prim .null ⟨[⟨.universal, false, 5⟩], .inter .nil, []⟩ := by decide +kernel
  rw [hu]
  exact .prim _ _ _ _

/-- So it is written and read again with the dictionary. -/
example : ∃ s b, Reached s ∧ oencode algorithmIdentifier ownObject = some b ∧
    decodeWith ⟨own, true⟩ s.get algorithmIdentifier b = some (ownObject, []) := by
  obtain ⟨s, h1, h2⟩ := example_reached
  obtain ⟨b, h3, h4⟩ := exact s h2 own (by simp [IsDict, own]) (fit_of_package own_package) _
    (OpenTypes.registry_iff (by simp [IsDict, own]) true s.get) _ Codec.Examples.alg_mem (by decide) (by decide) _ _
    (own_typed s h1) (by decide +kernel) (by decide +kernel) (by decide +kernel)
  have h5 := h4 []
  rw [List.append_nil] at h5
  exact ⟨s, b, h2, h3, h5⟩

/-- A class of the program's own: a SEQUENCE of an INTEGER with a default and an OCTET STRING with a tag [0]. -/
def ownClass : Ty := .seq false ⟨[⟨.universal, true, 16⟩], .inter .nil, []⟩
  (.cons ⟨"rounds", .dflt (.int 1000), none⟩ (.prim .integer ⟨[⟨.universal, false, 2⟩], .inter .nil, []⟩)
  (.cons ⟨"salt", .opt, none⟩ (.prim .octetString ⟨[⟨.context, false, 0⟩], .inter .nil, []⟩) .nil))

/-- It is fit. -/
example : Fit [(.oid [1, 3, 6, 1, 4, 1, 99999, 2], ownClass)] := by
  intro e he
  rw [List.mem_singleton] at he
  subst he
  decide +kernel

end TypedWith
end Props
end Verif
