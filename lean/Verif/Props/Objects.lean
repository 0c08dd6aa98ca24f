import Verif.Std.Objects.Table
import Verif.Asn1.Relax
import Verif.Props.Open
import Verif.Props.Standard

/-!
# C52: identifiers lead to the types the standards associate with them

`Std.registries` sets the entries each module makes in the dictionaries of open types beside the objects
`{ Type IDENTIFIED BY identifier }` of its standard (tools/std/objects.txt).
-/

namespace Verif
namespace Props
namespace Objects

open Asn1 Py Verif.Std

/-- What is checked of a grade is what it says. -/
theorem relates {t std : Ty} {g : Grade} (h : g.holds t std = true) : Relates t std g := by
  cases g with
  | same => exact ⟨agrees_valid h, agrees_encode h, agrees_decode h⟩
  | relaxed => exact ⟨relaxes_valid _ _ h, fun _ _ => relaxes_encode h, fun _ _ => relaxes_decode h⟩
  | widened => exact fun b r v hd => sub_decode _ _ b r v hd h
  | rewritten v =>
    simp only [Grade.holds, Bool.and_eq_true] at h
    obtain ⟨⟨⟨h0, h1⟩, h2⟩, h3⟩ := h
    obtain ⟨b, hb⟩ := Option.isSome_iff_exists.1 h2
    refine ⟨fun b r u hd => sub_decode _ _ b r u hd h0, h1, b, hb, fun heq => ?_⟩
    rw [hb, heq] at h3
    simp at h3
  | refused b =>
    simp only [Grade.holds, Bool.and_eq_true, Standard.readsAll_iff, Option.isNone_iff_eq_none] at h
    exact h
  | changed b =>
    simp only [Grade.holds, Bool.and_eq_true, Standard.readsAll_iff] at h
    obtain ⟨⟨⟨v, hv⟩, w, hw⟩, hne⟩ := h
    refine ⟨v, w, hv, hw, fun heq => ?_⟩
    rw [hv, hw, heq] at hne
    simp at hne

/-! ## Tables -/

/-- The modules that write to a dictionary of an object class are all there. -/
theorem modules_table : Package.modules.all (fun m => m.writes.all (fun w => !shared w.1) ||
    registries.any (fun s => Nat.beq s.module.id.idx m.id.idx)) = true := by decide +kernel

theorem classes_all (c : ObjClass) : c ∈ ObjClass.all := by cases c <;> simp [ObjClass.all]

theorem shared_map (c : ObjClass) : shared c.map = true := by
  simp only [shared, List.any_eq_true]
  exact ⟨c, classes_all c, by simp⟩

theorem maps_apart : ObjClass.all.all (fun c => ObjClass.all.all (fun d => !(Nat.beq c.map.idx d.map.idx) || decide (c = d))) = true := by decide +kernel

theorem map_inj {c d : ObjClass} (h : c.map.idx = d.map.idx) : c = d := by
  have := List.all_eq_true.1 (List.all_eq_true.1 maps_apart c (classes_all c)) d (classes_all d)
  simpa [h] using this

/-- Dictionaries are told apart by their numbers. -/
theorem names_table : Package.modules.all (fun m => m.effects.all (fun e => ObjClass.all.all (fun c =>
    !(Nat.beq c.map.idx (Registry.target e).idx) || decide (c.map = Registry.target e)))) = true := by decide +kernel

theorem written_map {x : Module} (hx : x ∈ Package.modules) {m : Py.Ident} {k : Val} {t : Ty} (hw : (m, k, t) ∈ x.writes)
    (c : ObjClass) (hc : c.map.idx = m.idx) : c.map = m := by
  obtain ⟨e, he, he2⟩ := List.mem_flatMap.1 hw
  have ht := Registry.writes_target e m k t he2
  have := List.all_eq_true.1 (List.all_eq_true.1 (List.all_eq_true.1 names_table x hx) e he) c (classes_all c)
  rw [ht] at this
  simpa [hc] using this

theorem map_once {α : Type} (f : α → Nat) : ∀ (l : List α), (l.map f).Nodup → ∀ x ∈ l, ∀ y ∈ l, f x = f y → x = y
  | [], _, x, hx, _, _, _ => nomatch hx
  | a :: l, h, x, hx, y, hy, he => by
    rw [List.map_cons, List.nodup_cons] at h
    rcases List.mem_cons.1 hx with rfl | hx2 <;> rcases List.mem_cons.1 hy with rfl | hy2
    · rfl
    · exact absurd (List.mem_map.2 ⟨y, hy2, he.symm⟩) h.1
    · exact absurd (List.mem_map.2 ⟨x, hx2, he⟩) h.1
    · exact map_once f l h.2 x hx2 y hy2 he

theorem same_module {x y : Module} (hx : x ∈ Package.modules) (hy : y ∈ Package.modules) (h : x.id.idx = y.id.idx) : x = y :=
  map_once (·.id.idx) _ (Registry.nodup_of_distinctNat _ Registry.ids_table) x hx y hy h

theorem registry_of {x : Module} (hx : x ∈ Package.modules) {m : Py.Ident} {k : Val} {t : Ty} (hw : (m, k, t) ∈ x.writes)
    (hm : shared m = true) : ∃ s ∈ registries, s.module = x := by
  have h := List.all_eq_true.1 modules_table x hx
  simp only [Bool.or_eq_true, List.all_eq_true, List.any_eq_true, Bool.not_eq_true'] at h
  rcases h with h | ⟨s, hs, h⟩
  · have := h _ hw
    rw [hm] at this
    simp at this
  · exact ⟨s, hs, same_module (registries_modules s hs) hx (Nat.eq_of_beq_eq_true h)⟩

/-! ## C52 -/

/-- Entries of the dictionaries that the transcription of the standards does not have. -/
def unlisted : List (ObjClass × Val) := registries.flatMap (·.unlisted)

/-- C52: whatever modules have been imported, in whatever order, the type found for an identifier is the one a standard
associates with that identifier in that object class, up to the grade recorded. -/
theorem registered_standard (s : State) (hs : Open.Reached s) (c : ObjClass) (k : Val) (t : Ty) (h : s.get c.map k = some t)
    (hu : (c, k) ∉ unlisted) :
    ∃ r ∈ registries, r.module.id ∈ s.loaded ∧ ∃ o ∈ r.objects, o.cls = c ∧ o.key = k ∧ ∃ g, o.grade = some g ∧ Relates t o.std g := by
  obtain ⟨fuel, ns, hi⟩ := hs
  obtain ⟨x, hx, hl, hw⟩ := Registry.registered_by fuel ns s hi c.map k t h
  obtain ⟨r, hr, rfl⟩ := registry_of hx hw (shared_map c)
  have hok := registries_ok r hr
  simp only [Objects.ok, Bool.and_eq_true, List.all_eq_true, Bool.or_eq_true, List.any_eq_true] at hok
  have := hok.1 _ hw
  simp only [shared_map, Bool.not_true, Bool.false_eq_true, false_or, decide_eq_true_eq, Object.at, Object.graded, Bool.and_eq_true] at this
  rcases this with ⟨u, hu1, hu2, hu3⟩ | ⟨o, ho, ⟨ho1, ho2⟩, ho3⟩
  · refine absurd (List.mem_flatMap.2 ⟨r, hr, ?_⟩) hu
    rw [← map_inj (Nat.eq_of_beq_eq_true hu2), ← hu3]
    exact hu1
  · refine ⟨r, hr, hl, o, ho, map_inj (Nat.eq_of_beq_eq_true ho1), ho2, ?_⟩
    cases hg : o.grade with
    | none => simp [hg] at ho3
    | some g => exact ⟨g, rfl, relates (by simpa [hg] using ho3)⟩

/-- C52: every object of a standard that is not recorded as missing is found once the module of that standard is loaded, and
where no other module claims the identifier for another type, the type found is that of the object up to its grade. -/
theorem object_registered (s : State) (hs : Open.Reached s) (r : Std.Objects) (hr : r ∈ registries) (hl : r.module.id ∈ s.loaded)
    (o : Object) (ho : o ∈ r.objects) (g : Grade) (hg : o.grade = some g) :
    s.get o.cls.map o.key ≠ none ∧ ((o.cls.map, o.key) ∉ Registry.contested → ∃ t, s.get o.cls.map o.key = some t ∧ Relates t o.std g) := by
  obtain ⟨fuel, ns, hi⟩ := hs
  have hm := registries_modules r hr
  have hok := registries_ok r hr
  simp only [Objects.ok, Bool.and_eq_true, List.all_eq_true, Bool.or_eq_true, List.any_eq_true] at hok
  have := hok.2 o ho
  simp only [Object.at, Object.graded, hg, Bool.and_eq_true, decide_eq_true_eq, Option.isNone_some,
    Bool.false_eq_true, false_and, or_false] at this
  obtain ⟨⟨m, k, t⟩, hw, ⟨h1, h2⟩, h3⟩ := this
  simp only at h1 h2 h3
  have hmap := written_map hm hw o.cls (Nat.eq_of_beq_eq_true h1)
  subst h2
  subst hmap
  obtain ⟨a, b⟩ := Registry.registered fuel ns s hi r.module hm hl _ _ t hw
  exact ⟨a, fun hc => ⟨t, b hc, relates h3⟩⟩

/-- The objects whose entry is not the type of the standard, or that type with constraints left out. -/
def deviations : List (String × ObjClass × Val) :=
  [("rfc2315", .PKCS7_CONTENT, .oid [1, 2, 840, 113549, 1, 7, 2]),
   ("rfc2459", .EXTENSION_2459, .oid [2, 5, 29, 35]),
   ("rfc2459", .EXTENSION_2459, .oid [2, 5, 29, 17]),
   ("rfc2459", .EXTENSION_2459, .oid [2, 5, 29, 18]),
   ("rfc2459", .EXTENSION_2459, .oid [2, 5, 29, 30]),
   ("rfc2459", .EXTENSION_2459, .oid [2, 5, 29, 36]),
   ("rfc2459", .EXTENSION_2459, .oid [2, 5, 29, 31]),
   ("rfc2459", .EXTENSION_2459, .oid [1, 3, 6, 1, 5, 5, 7, 1, 1]),
   ("rfc2459", .EXTENSION_2459, .oid [2, 5, 29, 27]),
   ("rfc2459", .EXTENSION_2459, .oid [2, 5, 29, 28]),
   ("rfc2459", .EXTENSION_2459, .oid [2, 5, 29, 29]),
   ("rfc2634", .CMS_ATTRIBUTE, .oid [1, 2, 840, 113549, 1, 9, 16, 2, 2]),
   ("rfc2634", .CMS_ATTRIBUTE, .oid [1, 2, 840, 113549, 1, 9, 16, 2, 9]),
   ("rfc2985", .ATTRIBUTE, .oid [2, 16, 840, 1, 113730, 3, 1, 216]),
   ("rfc4055", .ALGORITHM, .oid [1, 2, 840, 113549, 1, 1, 7]),
   ("rfc4055", .ALGORITHM, .oid [1, 2, 840, 113549, 1, 1, 10]),
   ("rfc4357", .ALGORITHM, .oid [1, 2, 643, 2, 2, 19]),
   ("rfc5035", .CMS_ATTRIBUTE, .oid [1, 2, 840, 113549, 1, 9, 16, 2, 47]),
   ("rfc5752", .CMS_ATTRIBUTE, .oid [1, 2, 840, 113549, 1, 9, 16, 2, 51]),
   ("rfc5755", .EXTENSION, .oid [2, 5, 29, 55]),
   ("rfc5755", .ATTRIBUTE, .oid [2, 5, 4, 55]),
   ("rfc5755", .ATTRIBUTE, .oid [2, 5, 1, 5, 55]),
   ("rfc5913", .EXTENSION, .oid [1, 3, 6, 1, 5, 5, 7, 1, 21]),
   ("rfc6402", .CMS_ATTRIBUTE, .oid [1, 3, 6, 1, 5, 5, 7, 7, 25]),
   ("rfc7292", .BAG_TYPE, .oid [1, 2, 840, 113549, 1, 12, 10, 1, 6]),
   ("rfc7906", .CMS_ATTRIBUTE, .oid [1, 2, 840, 113549, 1, 9, 16, 2, 2]),
   ("rfc8017", .ALGORITHM, .oid [1, 2, 840, 113549, 1, 1, 7]),
   ("rfc8017", .ALGORITHM, .oid [1, 2, 840, 113549, 1, 1, 10])]

def plain : Option Grade → Bool
  | some .same | some .relaxed | none => true
  | _ => false

theorem deviations_table : (registries.flatMap fun r => (r.objects.filter fun o => !plain o.grade).map fun o => (r.module.id.name, o.cls, o.key)) =
    deviations := by decide +kernel

/-- C52: apart from the deviations listed, with the module of a standard loaded the type found for an identifier reads everything
the standard's type reads and to the same value, and encodes every value of the standard's type the same. -/
theorem object_standard (s : State) (hs : Open.Reached s) (r : Std.Objects) (hr : r ∈ registries) (hl : r.module.id ∈ s.loaded)
    (o : Object) (ho : o ∈ r.objects) (hg : o.grade ≠ none) (hd : (r.module.id.name, o.cls, o.key) ∉ deviations)
    (hc : (o.cls.map, o.key) ∉ Registry.contested) :
    ∃ t, s.get o.cls.map o.key = some t ∧ (∀ b x, decode o.std b = some x → decode t b = some x) ∧
      ∀ v b, encode o.std v = some b → encode t v = some b := by
  cases hg2 : o.grade with
  | none => exact absurd hg2 hg
  | some g =>
    obtain ⟨t, h1, h2⟩ := (object_registered s hs r hr hl o ho g hg2).2 hc
    refine ⟨t, h1, ?_⟩
    by_cases hp : plain o.grade = true
    · rw [hg2] at hp
      cases g <;> simp only [plain, Bool.false_eq_true] at hp
      · exact ⟨fun b x hb => (h2.2.2 b).trans hb, fun v b hb => (h2.2.1 v).trans hb⟩
      · exact ⟨fun b x hb => h2.2.2 b x hb, fun v b hb => h2.2.1 v b hb⟩
    · refine absurd ?_ hd
      rw [← deviations_table]
      exact List.mem_flatMap.2 ⟨r, hr, List.mem_map.2 ⟨o, List.mem_filter.2 ⟨ho, by simpa using hp⟩, rfl⟩⟩

/-- The objects that no module of the package has an entry for. -/
def missing : List (String × ObjClass × Val) :=
  [("rfc3161", .CONTENT_TYPE, .oid [1, 2, 840, 113549, 1, 9, 16, 1, 4]),
   ("rfc3739", .QC_STATEMENT, .oid [1, 3, 6, 1, 5, 5, 7, 11, 1]),
   ("rfc3739", .QC_STATEMENT, .oid [1, 3, 6, 1, 5, 5, 7, 11, 2]),
   ("rfc5280", .EXTENSION, .oid [2, 5, 29, 54]),
   ("rfc5280", .EXTENSION, .oid [2, 5, 29, 46]),
   ("rfc5280", .EXTENSION, .oid [1, 3, 6, 1, 5, 5, 7, 1, 11]),
   ("rfc5280", .CERT_POLICY_QUALIFIER, .oid [1, 3, 6, 1, 5, 5, 7, 2, 1]),
   ("rfc5280", .CERT_POLICY_QUALIFIER, .oid [1, 3, 6, 1, 5, 5, 7, 2, 2]),
   ("rfc5914", .CONTENT_TYPE, .oid [1, 2, 840, 113549, 1, 9, 16, 1, 34]),
   ("rfc6402", .CMS_ATTRIBUTE, .oid [1, 3, 6, 1, 5, 5, 7, 7, 35]),
   ("rfc6402", .CMS_ATTRIBUTE, .oid [1, 3, 6, 1, 5, 5, 7, 7, 37]),
   ("rfc8103", .ALGORITHM, .oid [1, 2, 840, 113549, 1, 9, 16, 3, 18]),
   ("rfc8418", .ALGORITHM, .oid [1, 2, 840, 113549, 1, 9, 16, 3, 19]),
   ("rfc8418", .ALGORITHM, .oid [1, 2, 840, 113549, 1, 9, 16, 3, 20]),
   ("rfc8418", .ALGORITHM, .oid [1, 2, 840, 113549, 1, 9, 16, 3, 21])]

theorem missing_table : (registries.flatMap fun r => (r.objects.filter fun o => !Registry.written.any (fun w => o.at w)).map fun o =>
    (r.module.id.name, o.cls, o.key)) = missing := by decide +kernel

/-- C52: these identifiers are never found, whatever is imported: their values stay undecoded. -/
theorem missing_never (s : State) (hs : Open.Reached s) (n : String) (c : ObjClass) (k : Val) (h : (n, c, k) ∈ missing) :
    s.get c.map k = none := by
  rw [← missing_table] at h
  obtain ⟨r, _, h⟩ := List.mem_flatMap.1 h
  obtain ⟨o, ho, he⟩ := List.mem_map.1 h
  have hf := (List.mem_filter.1 ho).2
  injection he with _ he
  injection he with e1 e2
  subst e1 e2
  cases hg : s.get o.cls.map o.key with
  | none => rfl
  | some t =>
    have hw := Open.reached_written hs hg
    have : Registry.written.any (fun w => o.at w) = true := List.any_eq_true.2 ⟨_, hw, by simp [Object.at]⟩
    rw [this] at hf
    simp at hf

/-- The hypotheses of `object_standard` are met: with rfc5280 imported, keyUsage leads to a type that reads the bits
digitalSignature and keyEncipherment, as RFC 5280 has it. -/
theorem example_keyUsage : ∃ s, Open.Reached s ∧ Std.Rfc5280.registered.module.id ∈ s.loaded ∧
    ∃ t, s.get ObjClass.EXTENSION.map (.oid [2, 5, 29, 15]) = some t ∧
      decode t [3, 2, 5, 0xa0] = some (.bits [true, false, true], []) := by
  obtain ⟨s, hs⟩ : ∃ s, importAll Package.modules 130 [Verif.Rfc5280.asModule.id] .start = some s := by
    refine Option.isSome_iff_exists.1 ?_
    decide +kernel
  have hl : Std.Rfc5280.registered.module.id ∈ s.loaded := by
    have : (importAll Package.modules 130 [Verif.Rfc5280.asModule.id] .start).all
        (fun s => decide (Std.Rfc5280.registered.module.id ∈ s.loaded)) = true := by decide +kernel
    rw [hs] at this
    simpa using this
  refine ⟨s, ⟨130, _, hs⟩, hl, ?_⟩
  have ho : (⟨.EXTENSION, .oid [2, 5, 29, 15], Std.Rfc5280.KeyUsage, some .same⟩ : Object) ∈ Std.Rfc5280.registered.objects :=
    List.mem_of_getElem? (i := 42) rfl
  obtain ⟨t, h1, h2, _⟩ := object_standard s ⟨130, _, hs⟩ Std.Rfc5280.registered (List.mem_of_getElem? (i := 35) rfl) hl _ ho nofun
    (by decide +kernel) (by decide +kernel)
  exact ⟨t, h1, h2 _ _ (by decide +kernel)⟩

end Objects
end Props
end Verif
