import Verif.Asn1.BerOpenWith
import Verif.Props.BerOpen
import Verif.Props.TypedWith

/-!
# The caller's dictionary of open types with the BER decoder

C80: `ber.decoder.decode(b, asn1Spec=X(), openTypes={...}, decodeOpenTypes=...)` in a program that has imported any modules of
the package.
-/

namespace Verif
namespace Props
namespace BerOpenWith

open Asn1 hiding decodeWith
open Py Spec.OpenTypes
open Asn1.BerOpen (decodeWith)
open Open (Reached ungoverned)
open OpenTypes (IsDict Usable)

/-- C80: without both options, no field is opened. -/
theorem off (D : Asn1.Registry) (t : Ty) (b r : Bytes) :
    (∀ v, berDecode t b = some (v, r) → ∃ w, decodeWith {} D t b = some (w, r) ∧ w.plain? = some v) ∧
    (∀ w, decodeWith {} D t b = some (w, r) → ∃ v, berDecode t b = some (v, r) ∧ w.plain? = some v) := by
  have hd : decodeWith {} D t b = (berDecode t b).map (fun p => (OVal.ofVal p.1, p.2)) := rfl
  constructor
  · intro v h
    exact ⟨_, by rw [hd, h]; rfl, OVal.plain_ofVal v⟩
  · intro w h
    rw [hd] at h
    obtain ⟨⟨v, r'⟩, h1, h2⟩ := Option.map_eq_some_iff.1 h
    cases h2
    exact ⟨v, h1, OVal.plain_ofVal v⟩

/-- C80: with `decodeOpenTypes=True` and no dictionary, the result is that of C76. -/
theorem flag_only (s : State) (t : Ty) (b : Bytes) : decodeWith ⟨[], true⟩ s.get t b = BerOpen.decodeOpen s t b := rfl

/-- C80: a dictionary that is not empty has the same effect with and without `decodeOpenTypes=True`. -/
theorem flag_implied (dict : List (Val × Ty)) (h : dict ≠ []) (D : Asn1.Registry) (t : Ty) (b : Bytes) :
    decodeWith ⟨dict, false⟩ D t b = decodeWith ⟨dict, true⟩ D t b := by
  have : dict.isEmpty = false := by cases dict <;> simp_all
  simp only [decodeWith, this]
  rfl

/-- C80: the result is that of the plain BER decoder, with the same unused octets, except that every open type field whose
governor is in the caller's dictionary holds the decoding of its octets under the type given there, and of the others, every
one whose governor is in the dictionary of the class the decoding under that type. -/
theorem resolved (dict : List (Val × Ty)) (hd : IsDict dict) (D R : Asn1.Registry) (hR : Resolution dict D R) (t : Ty)
    (b r : Bytes) (w : OVal) (h : decodeWith ⟨dict, true⟩ D t b = some (w, r)) :
    ∃ v, berDecode t b = some (v, r) ∧ Asn1.BerOpen.Opens R t v w := by
  have hr := OpenTypes.resolution_unique (OpenTypes.registry_iff hd true D) hR
  simp only [decodeWith, Bool.or_true, if_true, hr] at h
  exact Asn1.BerOpen.odecode_sound R _ t b w r h

/-- C80: it ends: a larger bound on the nesting of open types gives the same result. -/
theorem depth (s : State) (hs : Reached s) (c : String × Ty) (hc : c ∈ Package.types) (dict : List (Val × Ty))
    (hu : Usable dict) (b : Bytes) (n : Nat) (hn : b.length < n) :
    Asn1.BerOpen.odecode (Options.registry ⟨dict, true⟩ s.get) n c.2 b = decodeWith ⟨dict, true⟩ s.get c.2 b := by
  simp only [decodeWith, Bool.or_true, if_true]
  exact Asn1.BerOpen.odecode_fuel (OpenTypes.registry_openOk hs hu true) b.length c.2 b n (b.length + 1) (Open.openOk_of_mem hc)
    (Nat.le_refl _) hn (Nat.lt_succ_self _)

/-- C80: it succeeds whenever the plain BER decoder does and the contents of the open type fields with an entry in one of the
two dictionaries can be decoded. -/
theorem complete (s : State) (hs : Reached s) (c : String × Ty) (hc : c ∈ Package.types) (hn : c.1 ∉ ungoverned)
    (dict : List (Val × Ty)) (hd : IsDict dict) (hu : Usable dict) (R : Asn1.Registry) (hR : Resolution dict s.get R)
    (b r : Bytes) (v : Val) (h : berDecode c.2 b = some (v, r))
    (hf : ∀ p ∈ c.2.contents R v, decodeWith ⟨dict, true⟩ s.get p.1 p.2 ≠ none) :
    ∃ w, decodeWith ⟨dict, true⟩ s.get c.2 b = some (w, r) := by
  have hr := OpenTypes.resolution_unique (OpenTypes.registry_iff hd true s.get) hR
  simp only [decodeWith, Bool.or_true, if_true] at hf ⊢
  rw [← hr] at hf
  exact Asn1.BerOpen.odecode_complete (OpenTypes.registry_openOk hs hu true) (Open.openOk_of_mem hc) (Open.governed_of_mem hc hn)
    b r v h hf

/-- C80: what the DER decoder accepts with some options the BER decoder accepts with the same options, with the same result. -/
theorem of_der (o : Options) (D : Asn1.Registry) (t : Ty) (b : Bytes) (p : OVal × Bytes) (h : Asn1.decodeWith o D t b = some p) :
    decodeWith o D t b = some p := by
  simp only [Asn1.decodeWith] at h
  simp only [decodeWith]
  split at h
  · rename_i hc
    rw [if_pos hc]
    exact Asn1.BerOpen.odecode_extends _ _ t b p h
  · rename_i hc
    rw [if_neg hc]
    obtain ⟨q, h1, h2⟩ := Option.map_eq_some_iff.1 h
    rw [berDecode_extends t b q.1 q.2 h1]
    simp [h2]

/-- C80: passing a copy of the dictionary that all open type fields of the class use changes nothing, if the types in this
dictionary do not use others. -/
theorem own_copy (s : State) (hs : Reached s) (m : Py.Ident) (hm : m ∈ OpenTypes.selfContained) (t : Ty)
    (ht : t.each (Ty.useOnly (OpenTypes.isMap m)) = true) (dict : List (Val × Ty)) (hd : IsDict dict)
    (hc : CopyOf s.get m dict) (b : Bytes) : decodeWith ⟨dict, true⟩ s.get t b = BerOpen.decodeOpen s t b := by
  simp only [decodeWith, Bool.or_true, if_true, BerOpen.decodeOpen]
  have same : ∀ m' k, OpenTypes.isMap m m' = true → Options.registry ⟨dict, true⟩ s.get m' k = s.get m' k := by
    intro m' k h
    obtain rfl := OpenTypes.isMap_iff.1 h
    apply Option.ext
    intro u
    rw [OpenTypes.registry_iff hd true s.get m k u]
    constructor
    · rintro (h | h)
      · exact (hc k u).1 h
      · exact h.2
    · exact fun h => .inl ((hc k u).2 h)
  refine Asn1.BerOpen.odecode_use same ?_ _ t b ht
  intro m' k u h hk
  rw [same m' k h] at hk
  obtain rfl := OpenTypes.isMap_iff.1 h
  have := List.all_eq_true.1 (List.all_eq_true.1 OpenTypes.contained_table m hm) _ (Open.reached_written hs hk)
  simpa using this

theorem steady (s : State) (hs : Reached s) (c : String × Ty) (hc : c ∈ Package.types) (dict : List (Val × Ty))
    (hu : Usable dict) : Streams.Steady (decodeWith ⟨dict, true⟩ s.get c.2) := by
  constructor
  · intro b w r h
    simp only [decodeWith, Bool.or_true, if_true] at h
    obtain ⟨v, hv, _⟩ := Asn1.BerOpen.odecode_sound _ _ c.2 b w r h
    exact Streams.ber_shorter c.2 b v r hv
  · intro b w r z h
    rw [← depth s hs c hc dict hu b ((b ++ z).length + 1) (by simp only [List.length_append]; omega)] at h
    simp only [decodeWith, Bool.or_true, if_true]
    simp only [Asn1.BerOpen.odecode] at h ⊢
    cases hr : readElt b with
    | none => simp [hr] at h
    | some p =>
      obtain ⟨x, r'⟩ := p
      simp only [hr] at h
      simp only [BasicRules.element_append b z x r' hr]
      split at h
      · simp at h
      · rename_i w' hw
        simp only [Option.some.injEq, Prod.mk.injEq] at h
        rw [h.1, h.2]

/-- C80: octets after a complete encoding are returned untouched. -/
theorem append (s : State) (hs : Reached s) (c : String × Ty) (hc : c ∈ Package.types) (dict : List (Val × Ty))
    (hu : Usable dict) (b r z : Bytes) (w : OVal) (h : decodeWith ⟨dict, true⟩ s.get c.2 b = some (w, r)) :
    decodeWith ⟨dict, true⟩ s.get c.2 (b ++ z) = some (w, r ++ z) :=
  (steady s hs c hc dict hu).append b w r z h

/-- C80: in a reader of messages (C72) it makes no difference in what pieces the octets arrive. -/
theorem any_pieces (s : State) (hs : Reached s) (c : String × Ty) (hc : c ∈ Package.types) (dict : List (Val × Ty))
    (hu : Usable dict) (ps qs : List Bytes) (he : ps.flatten = qs.flatten) :
    Stream.listen (decodeWith ⟨dict, true⟩ s.get c.2) ps = Stream.listen (decodeWith ⟨dict, true⟩ s.get c.2) qs :=
  Streams.any_pieces_of (steady s hs c hc dict hu) ps qs he

/-- C80: objects with typed contents (C79) are read by the BER decoder as by the DER decoder. -/
theorem typed (s : State) (hs : Reached s) (dict : List (Val × Ty)) (hi : IsDict dict) (hp : TypedWith.Fit dict)
    (R : Asn1.Registry) (hR : Resolution dict s.get R) (c : String × Ty) (hc : c ∈ Package.types) (hd : c.1 ∉ Package.defective)
    (hu : c.1 ∉ ungoverned) (v : Val) (w : OVal) (h : Asn1.Typed R (TypedWith.Sound dict) false c.2 v w)
    (hv : c.2.valid v = true) (hz : c.2.weight v < Codec.maxOctets) :
    ∃ b, oencode c.2 w = some b ∧
      ∀ rest, ∃ w', decodeWith ⟨dict, true⟩ s.get c.2 (b ++ rest) = some (w', rest) ∧ Alike false c.2 w w' := by
  obtain ⟨b, h1, h2⟩ := TypedWith.roundtrip s hs dict hi hp R hR c hc hd hu v w h hv hz
  refine ⟨b, h1, fun rest => ?_⟩
  obtain ⟨w', h3, h4⟩ := h2 rest
  exact ⟨w', of_der _ _ _ _ _ h3, h4⟩

/-! ## The recipe of rfc6664.py:124-132 -/

theorem capability_types : Registry.written.all (fun w => !(Nat.beq w.1.idx 14 && decide (w.2.1 = OpenTypes.rsaEncryption)) ||
    decide (berDecode w.2.2 [5, 0] = none)) = true := by decide +kernel

theorem opensF_known {R : Asn1.Registry} {u : Ty} {ds : Comps} {us : Vals} {f : Field} {t : Ty} {v : Val} {w : OVal}
    (h : Asn1.BerOpen.OpensF R ds us f t v w) {o : OpenTy} {g : Val} (ho : f.openType = some o)
    (hg : fieldVal o.governor ds us = some g) (hr : R o.map g = some u) :
    v = .absent ∨ (∃ b, v = .octets b ∧ b.take 2 = [0, 0]) ∨ Asn1.BerOpen.OpensV R t u v w := by
  cases h with
  | absent => exact .inl rfl
  | dflt _ _ _ _ _ _ hn =>
    rw [hn o g ho hg] at hr
    cases hr
  | plain _ _ _ _ _ _ hn =>
    rw [hn] at ho
    cases ho
  | unknown _ _ _ _ _ _ o' g' ho' hg' hr' =>
    rw [ho] at ho'
    cases ho'
    rw [hg] at hg'
    cases hg'
    rw [hr] at hr'
    cases hr'
  | marker _ _ _ _ b _ _ _ _ hb => exact .inr (.inl ⟨b, rfl, hb⟩)
  | known _ _ _ _ _ _ o' g' u' ho' hg' hr' hv =>
    rw [ho] at ho'
    cases ho'
    rw [hg] at hg'
    cases hg'
    rw [hr] at hr'
    cases hr'
    exact .inr (.inr hv)

/-- C80: with the BER decoder too, a copy of smimeCapabilityMap makes the algorithm identifier of RSA keys be refused (C56). -/
theorem recipe_refused (s : State) (hs : Reached s) (dict : List (Val × Ty)) (hd : IsDict dict) (u : Ty)
    (hg : s.get OpenTypes.smimeCapabilityMap OpenTypes.rsaEncryption = some u) (hm : (OpenTypes.rsaEncryption, u) ∈ dict) :
    decodeWith ⟨dict, true⟩ s.get Open.algorithmIdentifier OpenTypes.rsaNull = none := by
  cases h : decodeWith ⟨dict, true⟩ s.get Open.algorithmIdentifier OpenTypes.rsaNull with
  | none => rfl
  | some x =>
    obtain ⟨w, r⟩ := x
    have hR := OpenTypes.registry_iff hd true s.get
    obtain ⟨v, hv, ho⟩ := resolved dict hd s.get _ hR _ _ r w h
    rw [berDecode_extends _ _ _ _ OpenTypes.rsaNull_plain] at hv
    cases hv
    have hn : berDecode u [5, 0] = none := by
      have := List.all_eq_true.1 capability_types _ (Open.reached_written hs hg)
      simpa [OpenTypes.smimeCapabilityMap, Py.map] using this
    have hr : Options.registry ⟨dict, true⟩ s.get (Py.map 3 "rfc5280.algorithmIdentifierMap") OpenTypes.rsaEncryption = some u :=
      (hR _ _ _).2 (.inl hm)
    cases ho with
    | seq _ _ cs vs ws hc =>
      cases hc with
      | cons _ _ _ _ _ _ _ _ _ _ hc =>
        cases hc with
        | cons _ _ f t _ _ _ _ _ hf _ =>
          rcases opensF_known (u := u) hf (o := ⟨"algorithm", Py.map 3 "rfc5280.algorithmIdentifierMap"⟩)
            (g := OpenTypes.rsaEncryption) rfl rfl hr with h | ⟨b, h, h'⟩ | h
          · cases h
          · cases h
            simp at h'
          · cases h with
            | one _ _ _ _ _ _ hx => rw [hn] at hx; cases hx

/-! ## Concrete cases -/

/-- Imports, then decode BER with a dictionary. -/
def decodeAfterWith (ns : List Py.Ident) (dict : List (Val × Ty)) (t : Ty) (b : Bytes) : Option (OVal × Bytes) :=
  (importAll Package.modules 130 ns .start).bind (fun s => decodeWith ⟨dict, false⟩ s.get t b)

/-- The object of C79, with indefinite lengths. -/
def ownIndefinite : Bytes := [0x30, 0x80, 6, 9, 0x2b, 6, 1, 4, 1, 0x86, 0x8d, 0x1f, 1] ++ Open.sha256Null ++ [0, 0]

/-- The caller's dictionary and that of the class work together; without the former nothing is opened. -/
example : decodeAfterWith [Rfc4055.asModule.id] TypedWith.own Open.algorithmIdentifier ownIndefinite =
      some (TypedWith.ownObject, []) ∧
    BerOpen.decodeAfter [Rfc4055.asModule.id] Open.algorithmIdentifier ownIndefinite =
      some (.record (.ofList [.leaf (.oid [1, 3, 6, 1, 4, 1, 99999, 1]), .leaf (.octets Open.sha256Null)]), []) := by
  decide +kernel

/-- The hypotheses on the dictionary are met. -/
example : IsDict TypedWith.own ∧ Usable TypedWith.own := by
  refine ⟨by simp [IsDict, TypedWith.own], OpenTypes.usable_of_package _ (fun e he => ?_)⟩
  obtain ⟨c, hc, _, _, h⟩ := TypedWith.own_package e he
  exact ⟨c, hc, h⟩

end BerOpenWith
end Props
end Verif
