import Verif.Asn1.TypedAlike
import Verif.Props.OpenDer
import Verif.Props.BerOpen

/-!
# C77: objects assembled with typed contents

A program puts objects of the registered types into open type fields, as in
`algId['parameters'] = RSASSA_PSS_params()`, encodes, and decodes with `decodeOpenTypes=True`.
-/

namespace Verif
namespace Props
namespace Typed

open Asn1 Py Open OpenDer

/-- The objects whose registered type is one of those C12 leaves out (`Package.defective`): the attribute
firmware-package-info and the CMC control changeSubjectName. -/
def flawed : List Val := [.oid [1, 2, 840, 113549, 1, 9, 16, 2, 42], .oid [1, 3, 6, 1, 5, 5, 7, 7, 25]]

/-- All other fields, but for the subject key identifier in `rfc2459.Extension`. -/
def Sound (c : Content) : Prop := c.key ∉ flawed ∧ ¬ skiField c

theorem flawed_table : Registry.written.all (fun w => flawed.contains w.2.1 || w.2.2.wf) = true := by decide +kernel

/-- They are all needed. -/
theorem flawed_real : flawed.all (fun k => Registry.written.any (fun w => decide (w.2.1 = k) && !w.2.2.wf)) = true := by
  decide +kernel

/-- What holds of all classes and of all registered types. -/
def Usual (t : Ty) : Prop :=
  t.stable = true ∧ t.each Ty.openOk = true ∧ t.each Ty.governed = true ∧ t.each Ty.apart = true

theorem usual {s : State} (hs : Reached s) : Closed s.get Sound Usual where
  governed _ h := h.2.2.1
  openOk _ h := h.2.1
  stable _ h := h.1
  fits _ _ _ ht hc ho := apart_fits hs ht.2.2.2 hc ho.2
  types t v c _ hc ho := by
    have hr := reached_written hs (Ty.fields_from t v c hc).registered
    refine ⟨⟨List.all_eq_true.1 registered_stable _ hr, List.all_eq_true.1 registered_openOk _ hr,
      List.all_eq_true.1 registered_governed _ hr, List.all_eq_true.1 apart_registered _ hr⟩, ?_⟩
    have := List.all_eq_true.1 flawed_table _ hr
    simp only [Bool.or_eq_true, List.contains_iff_mem] at this
    exact this.resolve_left ho.1

theorem usual_of_mem {c : String × Ty} (hc : c ∈ Package.types) (hu : c.1 ∉ ungoverned) : Usual c.2 :=
  ⟨Package.stable_of_mem hc, openOk_of_mem hc, governed_of_mem hc hu, List.all_eq_true.1 apart_table c hc⟩

/-- C77: an object whose open type fields hold objects of the registered types is written with the encodings of these
objects in the fields. -/
theorem typed_encode (s : State) (hs : Reached s) (c : String × Ty) (hc : c ∈ Package.types) (hu : c.1 ∉ ungoverned)
    (v : Val) (w : OVal) (h : Asn1.Typed s.get Sound false c.2 v w) : oencode c.2 w = encode c.2 v := by
  have G := usual hs
  have ht := usual_of_mem hc hu
  exact h.encEq G (governed_of_mem hc hu) (fun x hx => ⟨G.fits _ _ _ ht hx (h.oks x hx), (G.types _ _ _ ht hx (h.oks x hx)).1⟩)

/-- C77: it can be written, and reading what was written with open types gives the same object with the same objects in its
open type fields, up to the order in SET OFs and empty collections in OPTIONAL components, whatever follows. -/
theorem typed_roundtrip (s : State) (hs : Reached s) (c : String × Ty) (hc : c ∈ Package.types) (hd : c.1 ∉ Package.defective)
    (hu : c.1 ∉ ungoverned) (v : Val) (w : OVal) (h : Asn1.Typed s.get Sound false c.2 v w) (hv : c.2.valid v = true)
    (hz : c.2.weight v < Codec.maxOctets) :
    ∃ b, oencode c.2 w = some b ∧
      ∀ rest, ∃ w', decodeOpen s c.2 (b ++ rest) = some (w', rest) ∧ Alike false c.2 w w' := by
  obtain ⟨b, _, he, _⟩ := Codec.roundtrip c hc hd v hv hz
  obtain ⟨h1, h2⟩ := Asn1.typed_roundtrip (reached_openOk hs) (usual hs) h (usual_of_mem hc hu) (Package.wf_of_mem hc hd) hv he
  exact ⟨b, h1, h2⟩

/-- C77: if nothing in it can be reordered or left out, reading gives back exactly the object that was written. -/
theorem typed_exact (s : State) (hs : Reached s) (c : String × Ty) (hc : c ∈ Package.types) (hd : c.1 ∉ Package.defective)
    (hu : c.1 ∉ ungoverned) (v : Val) (w : OVal) (h : Asn1.Typed s.get Sound false c.2 v w) (hv : c.2.valid v = true)
    (hz : c.2.weight v < Codec.maxOctets) (hw : w.settled false c.2 = true) :
    ∃ b, oencode c.2 w = some b ∧ ∀ rest, decodeOpen s c.2 (b ++ rest) = some (w, rest) := by
  obtain ⟨b, h1, h2⟩ := typed_roundtrip s hs c hc hd hu v w h hv hz
  refine ⟨b, h1, fun rest => ?_⟩
  obtain ⟨w', h3, h4⟩ := h2 rest
  rwa [h4.eq hw] at h3

/-- C77: no two objects in which nothing can be reordered or left out have the same encoding. -/
theorem typed_injective (s : State) (hs : Reached s) (c : String × Ty) (hc : c ∈ Package.types) (hd : c.1 ∉ Package.defective)
    (hu : c.1 ∉ ungoverned) (v₁ v₂ : Val) (w₁ w₂ : OVal) (h₁ : Asn1.Typed s.get Sound false c.2 v₁ w₁)
    (h₂ : Asn1.Typed s.get Sound false c.2 v₂ w₂) (hv₁ : c.2.valid v₁ = true) (hv₂ : c.2.valid v₂ = true)
    (hz₁ : c.2.weight v₁ < Codec.maxOctets) (hz₂ : c.2.weight v₂ < Codec.maxOctets)
    (hw₁ : w₁.settled false c.2 = true) (hw₂ : w₂.settled false c.2 = true) (he : oencode c.2 w₁ = oencode c.2 w₂) :
    w₁ = w₂ := by
  obtain ⟨b₁, e₁, d₁⟩ := typed_exact s hs c hc hd hu v₁ w₁ h₁ hv₁ hz₁ hw₁
  obtain ⟨b₂, e₂, d₂⟩ := typed_exact s hs c hc hd hu v₂ w₂ h₂ hv₂ hz₂ hw₂
  have hb : b₁ = b₂ := Option.some.inj (e₁.symm.trans (he.trans e₂))
  have h := d₁ []
  rw [hb, d₂ []] at h
  exact (Prod.mk.inj (Option.some.inj h)).1.symm

/-- C77: the BER decoder reads the same object. -/
theorem typed_ber (s : State) (hs : Reached s) (c : String × Ty) (hc : c ∈ Package.types) (hd : c.1 ∉ Package.defective)
    (hu : c.1 ∉ ungoverned) (v : Val) (w : OVal) (h : Asn1.Typed s.get Sound false c.2 v w) (hv : c.2.valid v = true)
    (hz : c.2.weight v < Codec.maxOctets) :
    ∃ b, oencode c.2 w = some b ∧
      ∀ rest, ∃ w', BerOpen.decodeOpen s c.2 (b ++ rest) = some (w', rest) ∧ Alike false c.2 w w' := by
  obtain ⟨b, h1, h2⟩ := typed_roundtrip s hs c hc hd hu v w h hv hz
  refine ⟨b, h1, fun rest => ?_⟩
  obtain ⟨w', h3, h4⟩ := h2 rest
  exact ⟨w', BerOpen.open_der s c.2 _ _ h3, h4⟩

/-! ## Concrete cases -/

/-- An AlgorithmIdentifier with an object as parameters. -/
def algorithmWith (oid : List Nat) (u : Ty) (parameters : OVal) : OVal :=
  .record (.ofList [.leaf (.oid oid), .opened u parameters])

theorem algorithm_typed {D : Asn1.Registry} {ok : Content → Prop} {oid : List Nat} {c : Bytes} {u : Ty} {ine : Bool} {v : Val} {w : OVal}
    (hr : D (Py.map 3 "rfc5280.algorithmIdentifierMap") (.oid oid) = some u) (hv : u.valid v = true)
    (he : enc true u v = some c) (hn : u.vanish v = false)
    (ha : ok ⟨true, Py.map 3 "rfc5280.algorithmIdentifierMap", .oid oid, .prim .any ⟨[], .inter .nil, []⟩, u, c⟩)
    (h : Asn1.Typed D ok true u v w) :
    Asn1.Typed D ok ine algorithmIdentifier (algorithm oid c) (algorithmWith oid u w) := by
  rw [algorithm_type]
  refine .seq _ _ _ _ _ _ (.cons _ _ _ _ _ _ _ _ _ (.plain _ _ _ _ _ _ rfl (by simp) (.prim _ _ _ _))
    (.cons _ _ _ _ _ _ _ _ _ ?_ (.nil _ _)))
  exact .known _ _ _ _ _ _ ⟨"algorithm", Py.map 3 "rfc5280.algorithmIdentifierMap"⟩ (.oid oid) u rfl (by simp [fieldVal, Vals.ofList]) hr
    (by simp) (.one _ _ _ _ _ _ _ _ _ hv he (fun _ => hn) ha h)

/-- MGF1 with SHA-256, assembled of objects: an AlgorithmIdentifier in the parameters of an AlgorithmIdentifier, which has a
Null as its parameters. -/
def mgf1Object : OVal := algorithmWith [1, 2, 840, 113549, 1, 1, 8] algorithmIdentifier
  (algorithmWith [2, 16, 840, 1, 101, 3, 4, 2, 1] Py.univ.Null.call.ty (.leaf .null))

/-- C77's hypotheses are met. -/
theorem mgf1_typed (s : State) (hs : importAll Package.modules 130 [Rfc4055.asModule.id] .start = some s) :
    Asn1.Typed s.get Sound false algorithmIdentifier (algorithm [1, 2, 840, 113549, 1, 1, 8] sha256Null) mgf1Object := by
  refine algorithm_typed (u := algorithmIdentifier) (v := algorithm [2, 16, 840, 1, 101, 3, 4, 2, 1] [5, 0])
    (registered_after hs (by decide +kernel)) (by decide +kernel) (by decide +kernel) (by decide +kernel)
    ⟨by decide, by simp [skiField]⟩ ?_
  refine algorithm_typed (u := Py.univ.Null.call.ty) (v := .null)
    (registered_after hs (by decide +kernel)) (by decide +kernel) (by decide +kernel) (by decide +kernel)
    ⟨by decide, by simp [skiField]⟩ ?_
  have hu : Py.univ.Null.call.ty = .prim .null ⟨[⟨.universal, false, 5⟩], .inter .nil, []⟩ := by decide +kernel
  rw [hu]
  exact .prim _ _ _ _

/-- So it is written and read again. -/
example : ∃ s, Reached s ∧ oencode algorithmIdentifier mgf1Object = some mgf1Sha256 ∧
    decodeOpen s algorithmIdentifier mgf1Sha256 = some (mgf1Object, []) := by
  obtain ⟨s, h1, h2⟩ := example_reached
  obtain ⟨b, h3, h4⟩ := typed_exact s h2 _ Codec.Examples.alg_mem (by decide) (by decide) _ _ (mgf1_typed s h1)
    (by decide +kernel) (by decide +kernel) (by decide +kernel)
  have : oencode algorithmIdentifier mgf1Object = some mgf1Sha256 := by decide +kernel
  have hb : b = mgf1Sha256 := by
    have h3' : oencode algorithmIdentifier mgf1Object = some b := h3
    rw [this] at h3'
    exact (Option.some.inj h3').symm
  have h5 := h4 []
  rw [List.append_nil, hb] at h5
  exact ⟨s, h2, this, h5⟩

/-- A CMS attribute (rfc5652.py:102-111) of the kind contentType, with several values. -/
def contentTypes (oids : List (List Nat)) : OVal :=
  .record (.ofList [.leaf (.oid [1, 2, 840, 113549, 1, 9, 3]),
    .list (.ofList (oids.map (fun o => .opened Rfc5652.ContentType.call.ty (.leaf (.oid o)))))])

theorem attribute_type : Rfc5652.Attribute.call.ty = .seq false ⟨[⟨.universal, true, 16⟩], .inter .nil, []⟩
    (.cons ⟨"attrType", .req, none⟩ (.prim .oid ⟨[⟨.universal, false, 6⟩], .inter .nil, []⟩)
    (.cons ⟨"attrValues", .req, some ⟨"attrType", Py.map 8 "rfc5652.cmsAttributesMap"⟩⟩
      (.of true ⟨[⟨.universal, true, 17⟩], .inter .nil, []⟩ (.prim .any ⟨[], .inter .nil, []⟩)) .nil)) := by
  decide +kernel

theorem contentType_type : Rfc5652.ContentType.call.ty = .prim .oid ⟨[⟨.universal, false, 6⟩], .inter .nil, []⟩ := by
  decide +kernel

/-- C77's hypotheses are met by an attribute with two values. -/
theorem contentTypes_typed (s : State) (hs : importAll Package.modules 130 [Rfc5652.asModule.id] .start = some s) :
    Asn1.Typed s.get Sound false Rfc5652.Attribute.call.ty
      (.record (.ofList [.oid [1, 2, 840, 113549, 1, 9, 3], .list (.ofList [.octets [6, 2, 42, 4], .octets [6, 2, 42, 3]])]))
      (contentTypes [[1, 2, 4], [1, 2, 3]]) := by
  have hr : s.get (Py.map 8 "rfc5652.cmsAttributesMap") (.oid [1, 2, 840, 113549, 1, 9, 3]) = some Rfc5652.ContentType.call.ty := by
    have h : ((importAll Package.modules 130 [Rfc5652.asModule.id] .start).bind (fun s =>
      s.get (Py.map 8 "rfc5652.cmsAttributesMap") (.oid [1, 2, 840, 113549, 1, 9, 3]))) = some Rfc5652.ContentType.call.ty := by
      decide +kernel
    rw [hs] at h
    exact h
  have hs : ∀ t u b, Sound ⟨false, Py.map 8 "rfc5652.cmsAttributesMap", .oid [1, 2, 840, 113549, 1, 9, 3], t, u, b⟩ :=
    fun _ _ _ => ⟨by simp [flawed], by simp [skiField]⟩
  rw [attribute_type]
  refine .seq _ _ _ _ _ _ (.cons _ _ _ _ _ _ _ _ _ (.plain _ _ _ _ _ _ rfl (by simp) (.prim _ _ _ _))
    (.cons _ _ _ _ _ _ _ _ _ ?_ (.nil _ _)))
  refine .known _ _ _ _ _ _ ⟨"attrType", Py.map 8 "rfc5652.cmsAttributesMap"⟩ _ _ rfl (by simp [fieldVal, Vals.ofList]) hr
    (by simp) (.many _ _ _ _ _ _ _ _ _ ?_)
  refine .cons _ _ _ _ _ _ (.oid [1, 2, 4]) _ _ _ (by decide +kernel) (by decide +kernel) (by simp [Mode.isOpt]) (hs _ _ _) ?_
    (.cons _ _ _ _ _ _ (.oid [1, 2, 3]) _ _ _ (by decide +kernel) (by decide +kernel) (by simp [Mode.isOpt]) (hs _ _ _) ?_ (.nil _ _ _ _ _))
  all_goals
    rw [contentType_type]
    exact .prim _ _ _ _

/-- The two values are sorted on the way: what comes back is alike, and not the same. -/
example : ∃ s, Reached s ∧ ∃ b, oencode Rfc5652.Attribute.call.ty (contentTypes [[1, 2, 4], [1, 2, 3]]) = some b ∧
    ∃ w', decodeOpen s Rfc5652.Attribute.call.ty b = some (w', []) ∧
      Alike false Rfc5652.Attribute.call.ty (contentTypes [[1, 2, 4], [1, 2, 3]]) w' := by
  obtain ⟨s, hs⟩ : ∃ s, importAll Package.modules 130 [Rfc5652.asModule.id] .start = some s := by
    refine Option.isSome_iff_exists.1 ?_
    decide +kernel
  have hm : ("rfc5652.Attribute", Rfc5652.Attribute.call.ty) ∈ Package.types := by decide +kernel
  obtain ⟨b, h1, h2⟩ := typed_roundtrip s ⟨130, _, hs⟩ _ hm (by decide) (by decide) _ _ (contentTypes_typed s hs)
    (by decide +kernel) (by decide +kernel)
  obtain ⟨w', h3, h4⟩ := h2 []
  rw [List.append_nil] at h3
  exact ⟨s, ⟨130, _, hs⟩, b, h1, w', h3, h4⟩

example : (contentTypes [[1, 2, 4], [1, 2, 3]]).settled false Rfc5652.Attribute.call.ty = false := by decide +kernel

/-- Why subject key identifiers are left out: the field is an OCTET STRING and so is the identifier, and the encoder takes
the object for the field itself (C26, `skiExtension_lost`). -/
example : skiField ⟨false, Py.map 1 "rfc2459.certificateExtensionsMap", .oid [2, 5, 29, 14], .bad "", .bad "", []⟩ := ⟨rfl, rfl⟩

end Typed
end Props
end Verif
