import Verif.Asn1.OpenTypes
import Verif.Spec.OpenTypes
import Verif.Props.Governed
import Verif.Props.Codec

/-!
# C56: the caller's dictionary of open types
-/

namespace Verif
namespace Props
namespace OpenTypes

open Asn1 Py Open Spec.OpenTypes

/-- A dictionary has one entry per key. -/
def IsDict (dict : List (Val × Ty)) : Prop := (dict.map Prod.fst).Nodup

theorem find_iff : ∀ {dict : List (Val × Ty)}, IsDict dict → ∀ (fl : Bool) (k : Val) (u : Ty),
    Options.find ⟨dict, fl⟩ k = some u ↔ (k, u) ∈ dict
  | [], _, _, _, _ => by simp [Options.find]
  | (k', u') :: dict, h, fl, k, u => by
    rw [IsDict, List.map_cons, List.nodup_cons] at h
    have h' := h
    have ih := find_iff (dict := dict) h'.2 fl k u
    simp only [Options.find, List.find?_cons] at ih ⊢
    by_cases hk : k' = k
    · subst hk
      simp only [decide_true, Option.map_some, Option.some.injEq, List.mem_cons, Prod.mk.injEq, true_and]
      constructor
      · exact fun e => .inl e.symm
      · rintro (e | e)
        · exact e.symm
        · exact absurd (List.mem_map.2 ⟨_, e, rfl⟩) h'.1
    · simp only [hk, decide_false, List.mem_cons, Prod.mk.injEq, Ne.symm hk, false_and, false_or]
      exact ih

theorem find_none {dict : List (Val × Ty)} {fl : Bool} {k : Val} :
    Options.find ⟨dict, fl⟩ k = none ↔ ∀ u, (k, u) ∉ dict := by
  simp only [Options.find, Option.map_eq_none_iff, List.find?_eq_none, decide_eq_true_eq]
  constructor
  · intro h u hm
    exact h _ hm rfl
  · rintro h ⟨k', u⟩ hm rfl
    exact h u hm

theorem registry_iff {dict : List (Val × Ty)} (h : IsDict dict) (fl : Bool) (D : Asn1.Registry) :
    Resolution dict D (Options.registry ⟨dict, fl⟩ D) := by
  intro m k u
  simp only [Options.registry, Resolves]
  split
  · rename_i u' hf
    have hm := (find_iff h fl k u').1 hf
    constructor
    · intro e; cases e; exact .inl hm
    · rintro (e | e)
      · rw [← (find_iff h fl k u).2 e, hf]
      · exact absurd hm (e.1 u')
  · rename_i hf
    have hn := find_none.1 hf
    constructor
    · exact fun e => .inr ⟨hn, e⟩
    · rintro (e | e)
      · exact absurd e (hn u)
      · exact e.2

/-- There is only one such resolution. -/
theorem resolution_unique {dict : List (Val × Ty)} {D R R' : Asn1.Registry} (h : Resolution dict D R) (h' : Resolution dict D R') :
    R = R' := by
  funext m k
  apply Option.ext
  intro u
  exact (h m k u).trans (h' m k u).symm

/-! ## What it does -/

/-- C56: without both options, no field is opened. -/
theorem off (D : Asn1.Registry) (t : Ty) (b r : Bytes) :
    (∀ v, decode t b = some (v, r) → ∃ w, decodeWith {} D t b = some (w, r) ∧ w.plain? = some v) ∧
    (∀ w, decodeWith {} D t b = some (w, r) → ∃ v, decode t b = some (v, r) ∧ w.plain? = some v) := by
  have hd : decodeWith {} D t b = (decode t b).map (fun p => (OVal.ofVal p.1, p.2)) := rfl
  constructor
  · intro v h
    exact ⟨_, by rw [hd, h]; rfl, OVal.plain_ofVal v⟩
  · intro w h
    rw [hd] at h
    obtain ⟨⟨v, r'⟩, h1, h2⟩ := Option.map_eq_some_iff.1 h
    cases h2
    exact ⟨v, h1, OVal.plain_ofVal v⟩

/-- C56: with `decodeOpenTypes=True` and no dictionary, the result is that of C26. -/
theorem flag_only (s : State) (t : Ty) (b : Bytes) : decodeWith ⟨[], true⟩ s.get t b = decodeOpen s t b := rfl

/-- C56: a dictionary that is not empty has the same effect with and without `decodeOpenTypes=True`. -/
theorem flag_implied (dict : List (Val × Ty)) (h : dict ≠ []) (D : Asn1.Registry) (t : Ty) (b : Bytes) :
    decodeWith ⟨dict, false⟩ D t b = decodeWith ⟨dict, true⟩ D t b := by
  have : dict.isEmpty = false := by cases dict <;> simp_all
  simp only [decodeWith, this]
  rfl

/-- C56: the result is that of the plain decoder, with the same unused octets, except that every open type field
whose governor is in the caller's dictionary holds the decoding of its octets under the type given there, and of the
others, every one whose governor is in the dictionary of the class the decoding under that type. -/
theorem resolved (dict : List (Val × Ty)) (hd : IsDict dict) (D R : Asn1.Registry) (hR : Resolution dict D R) (t : Ty)
    (b r : Bytes) (w : OVal) (h : decodeWith ⟨dict, true⟩ D t b = some (w, r)) :
    ∃ v, decode t b = some (v, r) ∧ Opens { registry := R } false t v w := by
  have hr := resolution_unique (registry_iff hd true D) hR
  simp only [decodeWith, Bool.or_true, if_true, hr] at h
  obtain ⟨v, hv, ho⟩ := odecode_sound R _ t b w r h
  exact ⟨v, hv, ho false⟩

/-- No type in the dictionary has an open type field with a default. -/
def Usable (dict : List (Val × Ty)) : Prop := ∀ e ∈ dict, e.2.each Ty.openOk = true

/-- All classes of the package are such types. -/
theorem usable_of_package (dict : List (Val × Ty)) (h : ∀ e ∈ dict, ∃ c ∈ Package.types, c.2 = e.2) : Usable dict := by
  intro e he
  obtain ⟨c, hc, he⟩ := h e he
  rw [← he]
  exact openOk_of_mem hc

theorem registry_openOk {s : State} (hs : Reached s) {dict : List (Val × Ty)} (hu : Usable dict) (fl : Bool) :
    Asn1.Registry.openOk (Options.registry ⟨dict, fl⟩ s.get) := by
  intro m k u h
  simp only [Options.registry] at h
  split at h
  · rename_i u' hf
    cases h
    obtain ⟨e, he, h2⟩ := Option.map_eq_some_iff.1 hf
    rw [← h2]
    exact hu _ (List.mem_of_find?_eq_some he)
  · exact reached_openOk hs m k u h

/-- C56: it ends: a larger bound on the nesting of open types gives the same result. -/
theorem depth (s : State) (hs : Reached s) (c : String × Ty) (hc : c ∈ Package.types) (dict : List (Val × Ty))
    (hu : Usable dict) (b : Bytes) (n : Nat) (hn : b.length < n) :
    odecode (Options.registry ⟨dict, true⟩ s.get) n c.2 b = decodeWith ⟨dict, true⟩ s.get c.2 b := by
  simp only [decodeWith, Bool.or_true, if_true]
  exact odecode_fuel (registry_openOk hs hu true) b.length c.2 b n (b.length + 1) (openOk_of_mem hc) (Nat.le_refl _) hn
    (Nat.lt_succ_self _)

/-- C56: it succeeds whenever the plain decoder does and the contents of the open type fields with an entry in one of
the two dictionaries can be decoded. -/
theorem complete (s : State) (hs : Reached s) (c : String × Ty) (hc : c ∈ Package.types) (hn : c.1 ∉ ungoverned)
    (dict : List (Val × Ty)) (hd : IsDict dict) (hu : Usable dict) (R : Asn1.Registry) (hR : Resolution dict s.get R)
    (b r : Bytes) (v : Val) (h : decode c.2 b = some (v, r))
    (hf : ∀ p ∈ c.2.contents R v, decodeWith ⟨dict, true⟩ s.get p.1 p.2 ≠ none) :
    ∃ w, decodeWith ⟨dict, true⟩ s.get c.2 b = some (w, r) := by
  have hr := resolution_unique (registry_iff hd true s.get) hR
  simp only [decodeWith, Bool.or_true, if_true] at hf ⊢
  rw [← hr] at hf
  exact odecode_complete (registry_openOk hs hu true) (openOk_of_mem hc) (governed_of_mem hc hn) b r v h hf

/-! ## Copies of the dictionaries of the package -/

/-- The dictionaries whose types have open type fields of this dictionary only. -/
def selfContained : List Py.Ident :=
  [Py.map 0 "rfc2459.certificateAttributesMap", Py.map 3 "rfc5280.algorithmIdentifierMap",
   Py.map 5 "rfc5280.oraddressExtensionAttributeMap", Py.map 7 "rfc5280.policyQualifierInfoMap",
   Py.map 9 "rfc5652.otherKeyAttributesMap", Py.map 10 "rfc5652.otherCertFormatMap",
   Py.map 16 "rfc7292.pkcs12CertBagMap", Py.map 17 "rfc7292.pkcs12CRLBagMap", Py.map 18 "rfc7292.pkcs12SecretBagMap",
   Py.map 19 "rfc5755.securityCategoryMap", Py.map 20 "rfc3739.qcStatementMap", Py.map 21 "rfc5126.sigQualifiersMap",
   Py.map 22 "rfc5126.commitmentQualifierMap", Py.map 23 "rfc5126.otherRevRefMap", Py.map 24 "rfc5126.otherRevValMap",
   Py.map 26 "rfc6031.sKeyAttributesMap", Py.map 27 "rfc6031.sKeyPkgAttributesMap"]

/-- Compares the numbers first. -/
def isMap (m x : Py.Ident) : Bool := Nat.beq m.idx x.idx && decide (m = x)

theorem isMap_iff {m x : Py.Ident} : isMap m x = true ↔ m = x := by
  simp only [isMap, Bool.and_eq_true, decide_eq_true_eq]
  constructor
  · exact fun h => h.2
  · rintro rfl
    exact ⟨Nat.beq_refl _, rfl⟩

theorem contained_table : selfContained.all (fun m => Registry.written.all (fun w =>
    !Nat.beq w.1.idx m.idx || w.2.2.each (Ty.useOnly (isMap m)))) = true := by decide +kernel

/-- C56: passing a copy of the dictionary that all open type fields of the class use changes nothing, if the types in
this dictionary do not use others. -/
theorem own_copy (s : State) (hs : Reached s) (m : Py.Ident) (hm : m ∈ selfContained) (t : Ty)
    (ht : t.each (Ty.useOnly (isMap m)) = true) (dict : List (Val × Ty)) (hd : IsDict dict) (hc : CopyOf s.get m dict)
    (b : Bytes) : decodeWith ⟨dict, true⟩ s.get t b = decodeOpen s t b := by
  simp only [decodeWith, Bool.or_true, if_true, decodeOpen]
  have same : ∀ m' k, isMap m m' = true → Options.registry ⟨dict, true⟩ s.get m' k = s.get m' k := by
    intro m' k h
    obtain rfl := isMap_iff.1 h
    apply Option.ext
    intro u
    rw [registry_iff hd true s.get m k u]
    constructor
    · rintro (h | h)
      · exact (hc k u).1 h
      · exact h.2
    · exact fun h => .inl ((hc k u).2 h)
  refine odecode_use same ?_ _ t b ht
  intro m' k u h hk
  rw [same m' k h] at hk
  obtain rfl := isMap_iff.1 h
  have := List.all_eq_true.1 (List.all_eq_true.1 contained_table m hm) _ (reached_written hs hk)
  simpa using this

/-- The classes that use the algorithm dictionary only. -/
def algorithmClasses : List (String × Ty) :=
  Package.types.filter (fun c => c.2.each (Ty.useOnly (isMap (Py.map 3 "rfc5280.algorithmIdentifierMap"))) &&
    !c.2.each (Ty.useOnly (fun _ => false)))

/-- There are many; the hypotheses of `own_copy` are met. -/
theorem algorithm_classes : algorithmClasses.length = 129 ∧
    ("rfc5280.AlgorithmIdentifier", algorithmIdentifier) ∈ algorithmClasses := by
  constructor
  · decide +kernel
  · refine List.mem_filter.2 ⟨?_, by decide +kernel⟩
    exact Codec.Examples.alg_mem

/-- The keys that two of the dictionaries used by open type fields map to different types, with the numbers of the
dictionaries. -/
def clashes : List (Nat × Nat × Val) :=
  -- rfc2459.certificateAttributesMap and rfc5280.certificateAttributesMap
  [(0, 4, .oid [1, 2, 840, 113549, 1, 9, 1]), (0, 4, .oid [2, 5, 4, 6]),
  -- rfc2315.contentTypeMap and rfc5652.cmsContentTypesMap
   (2, 13, .oid [1, 2, 840, 113549, 1, 7, 2]), (2, 13, .oid [1, 2, 840, 113549, 1, 7, 3]),
   (2, 13, .oid [1, 2, 840, 113549, 1, 7, 5]), (2, 13, .oid [1, 2, 840, 113549, 1, 7, 6]),
  -- rfc5280.algorithmIdentifierMap and rfc5751.smimeCapabilityMap
   (3, 14, .oid [1, 2, 840, 10040, 4, 1]), (3, 14, .oid [1, 2, 840, 113549, 1, 1, 1]),
   (3, 14, .oid [1, 2, 840, 10046, 2, 1]), (3, 14, .oid [1, 2, 840, 10045, 2, 1]),
   (3, 14, .oid [1, 2, 392, 200011, 61, 1, 1, 1, 2]), (3, 14, .oid [1, 2, 392, 200011, 61, 1, 1, 1, 3]),
   (3, 14, .oid [1, 2, 392, 200011, 61, 1, 1, 1, 4]), (3, 14, .oid [1, 2, 410, 200004, 1, 4]),
   (3, 14, .oid [1, 2, 840, 113549, 1, 1, 7]), (3, 14, .oid [1, 2, 840, 113549, 1, 1, 10]),
   (3, 14, .oid [1, 3, 132, 1, 12]), (3, 14, .oid [1, 3, 132, 1, 13]), (3, 14, .oid [1, 2, 840, 113549, 3, 2])]

/-- Two entries are for different dictionaries, for different keys, of the same type or listed. -/
def compatible (w w' : Py.Ident × Val × Ty) : Bool :=
  decide (w.2.2 = w'.2.2) ||
  clashes.any (fun c => (Nat.beq c.1 w.1.idx && Nat.beq c.2.1 w'.1.idx || Nat.beq c.1 w'.1.idx && Nat.beq c.2.1 w.1.idx) &&
    decide (c.2.2 = w.2.1))

/-- All pairs of a list whose first components are equal satisfy `p`. -/
def pairs (p : Py.Ident × Val × Ty → Py.Ident × Val × Ty → Bool) : List (Nat × Py.Ident × Val × Ty) → Bool
  | [] => true
  | w :: ws => ws.all (fun w' => !Nat.beq w.1 w'.1 || Nat.beq w.2.1.idx w'.2.1.idx || p w.2 w'.2) && pairs p ws

/-- The entries of the dictionaries that open type fields use, with a number for their keys. -/
def used : List (Nat × Py.Ident × Val × Ty) :=
  (Registry.written.filter (fun w => Nat.blt w.1.idx 28)).map (fun w => (Registry.code w.2.1, w))

theorem clash_table : pairs compatible used = true := by decide +kernel

theorem pairs_spec (p : Py.Ident × Val × Ty → Py.Ident × Val × Ty → Bool) : ∀ (l : List (Nat × Py.Ident × Val × Ty)),
    pairs p l = true → ∀ w ∈ l, ∀ w' ∈ l, w.1 = w'.1 → w.2.1.idx ≠ w'.2.1.idx → p w.2 w'.2 = true ∨ p w'.2 w.2 = true
  | [], _, w, h, _, _, _, _ => by simp at h
  | x :: l, hp, w, h, w', h', hk, hi => by
    simp only [pairs, Bool.and_eq_true, List.all_eq_true] at hp
    rcases List.mem_cons.1 h with e | hl <;> rcases List.mem_cons.1 h' with e' | hl'
    · exact absurd (by rw [e, e']) hi
    · subst e
      have := hp.1 w' hl'
      simp only [hk, Nat.beq_refl, Bool.not_true, Bool.false_or, Bool.or_eq_true, Nat.beq_eq] at this
      exact this.elim (fun e => absurd e hi) .inl
    · subst e'
      have := hp.1 w hl
      simp only [hk, Nat.beq_refl, Bool.not_true, Bool.false_or, Bool.or_eq_true, Nat.beq_eq] at this
      exact this.elim (fun e => absurd e.symm hi) .inr
    · exact pairs_spec p l hp.2 w hl w' hl' hk hi

/-- C56: whatever is imported, two dictionaries that open type fields use give the same type for the same key, except
for those listed: where a copy of one is passed, the fields that use the other are resolved as without it. -/
theorem copies_agree (s : State) (hs : Reached s) (m m' : Py.Ident) (hm : m.idx < 28) (hm' : m'.idx < 28)
    (hne : m.idx ≠ m'.idx) (k : Val) (u u' : Ty) (h : s.get m k = some u) (h' : s.get m' k = some u')
    (hc : (m.idx, m'.idx, k) ∉ clashes) (hc' : (m'.idx, m.idx, k) ∉ clashes) : u = u' := by
  have mem : ∀ m u, m.idx < 28 → s.get m k = some u → (Registry.code k, m, k, u) ∈ used := by
    intro m u hm h
    exact List.mem_map.2 ⟨_, List.mem_filter.2 ⟨reached_written hs h, by simpa [Nat.blt_eq] using hm⟩, rfl⟩
  have key : ∀ m m' (u u' : Ty), (m.idx, m'.idx, k) ∉ clashes → (m'.idx, m.idx, k) ∉ clashes →
      compatible (m, k, u) (m', k, u') = true → u = u' := by
    intro m m' u u' hc hc' h
    simp only [compatible, Bool.or_eq_true, decide_eq_true_eq, List.any_eq_true, Bool.and_eq_true, Nat.beq_eq] at h
    rcases h with h | ⟨⟨a, b, c⟩, hm, h⟩
    · exact h
    · simp only at h
      obtain ⟨⟨rfl, rfl⟩ | ⟨rfl, rfl⟩, rfl⟩ := h
      · exact absurd hm hc
      · exact absurd hm hc'
  rcases pairs_spec compatible used clash_table _ (mem m u hm h) _ (mem m' u' hm' h') rfl hne with e | e
  · exact key m m' u u' hc hc' e
  · exact (key m' m u' u hc' hc e).symm

/-- Those listed are. -/
theorem clashes_real : clashes.all (fun c => used.any (fun w => Nat.beq w.2.1.idx c.1 && decide (w.2.2.1 = c.2.2) &&
    used.any (fun w' => Nat.beq w'.2.1.idx c.2.1 && decide (w'.2.2.1 = c.2.2) && !decide (w.2.2.2 = w'.2.2.2)))) = true := by
  decide +kernel

/-! ## The recipe of rfc6664.py:124-132 -/

def smimeCapabilityMap : Py.Ident := Py.map 14 "rfc5751.smimeCapabilityMap"

def rsaEncryption : Val := .oid [1, 2, 840, 113549, 1, 1, 1]

/-- `rsaEncryption` with NULL, the identifier of every RSA key (RFC 3279, 2.3.1). -/
def rsaNull : Bytes := [0x30, 13, 6, 9, 0x2a, 0x86, 0x48, 0x86, 0xf7, 13, 1, 1, 1, 5, 0]

theorem rsaNull_plain : decode algorithmIdentifier rsaNull = some (.record (.ofList [rsaEncryption, .octets [5, 0]]), []) := by
  decide +kernel

theorem rsa_table : Registry.written.all (fun w => !(Nat.beq w.1.idx 3 && decide (w.2.1 = rsaEncryption)) ||
    decide (w.2.2 = Py.univ.Null.call.ty)) = true := by decide +kernel

/-- No entry for it takes NULL. -/
theorem capability_types : Registry.written.all (fun w => !(Nat.beq w.1.idx 14 && decide (w.2.1 = rsaEncryption)) ||
    decide (decode w.2.2 [5, 0] = none)) = true := by decide +kernel

/-- C56: the recipe of the comment is for capabilities alone.  A copy of rfc5751.smimeCapabilityMap, with rfc6664
imported and with any entries changed but that of `rsaEncryption`, makes the decoder refuse the algorithm identifier of
RSA keys, which it decodes without it: the caller's dictionary is consulted for every open type field, not only for
the capabilities. -/
theorem recipe_refused (s : State) (hs : Reached s) (dict : List (Val × Ty)) (hd : IsDict dict) (u : Ty)
    (hg : s.get smimeCapabilityMap rsaEncryption = some u) (hm : (rsaEncryption, u) ∈ dict) :
    decodeWith ⟨dict, true⟩ s.get algorithmIdentifier rsaNull = none ∧
    (decode algorithmIdentifier rsaNull).isSome = true ∧ (decodeOpen s algorithmIdentifier rsaNull).isSome = true := by
  refine ⟨?_, by rw [rsaNull_plain]; rfl, ?_⟩
  · cases h : decodeWith ⟨dict, true⟩ s.get algorithmIdentifier rsaNull with
    | none => rfl
    | some x =>
      obtain ⟨w, r⟩ := x
      have hR := registry_iff hd true s.get
      obtain ⟨v, hv, ho⟩ := resolved dict hd s.get _ hR _ _ r w h
      rw [rsaNull_plain] at hv
      cases hv
      have hn : decode u [5, 0] = none := by
        have := List.all_eq_true.1 capability_types _ (reached_written hs hg)
        simpa [smimeCapabilityMap, Py.map] using this
      have hr : Options.registry ⟨dict, true⟩ s.get (Py.map 3 "rfc5280.algorithmIdentifierMap") rsaEncryption = some u :=
        (hR _ _ _).2 (.inl hm)
      cases ho with
      | seq _ _ _ cs vs ws _ hc =>
        cases hc with
        | cons _ _ _ _ _ _ _ _ _ _ hc =>
          cases hc with
          | cons _ _ f t _ _ _ _ _ hf _ =>
            rcases Governed.opensF_known (u := u) hf (o := ⟨"algorithm", Py.map 3 "rfc5280.algorithmIdentifierMap"⟩)
              (g := rsaEncryption) rfl rfl hr with ⟨h, _⟩ | h
            · cases h
            · cases h with
              | one _ _ _ _ _ _ _ hx => rw [hn] at hx; cases hx
  · obtain ⟨w, hw⟩ := open_complete s hs _ Codec.Examples.alg_mem (by decide) rsaNull [] _ rsaNull_plain (by
      intro p hp
      have hc : Ty.contents s.get algorithmIdentifier (.record (.ofList [rsaEncryption, .octets [5, 0]])) =
          (match s.get (Py.map 3 "rfc5280.algorithmIdentifierMap") rsaEncryption with
            | none => []
            | some u => [(u, ([5, 0] : Bytes))]) ++ ([] : List (Ty × Bytes)) := rfl
      change p ∈ Ty.contents s.get algorithmIdentifier _ at hp
      rw [hc, List.append_nil] at hp
      split at hp
      · simp at hp
      · rename_i u' hu'
        have hnull : u' = Py.univ.Null.call.ty := by
          have := List.all_eq_true.1 rsa_table _ (reached_written hs hu')
          simpa [Py.map] using this
        rw [List.mem_singleton] at hp
        subst hp hnull
        have : ∀ D : Asn1.Registry, odecode D 3 Py.univ.Null.call.ty [5, 0] = some (.leaf .null, []) := fun _ => rfl
        intro hn
        rw [decodeOpen, List.length_cons, List.length_singleton, this] at hn
        cases hn)
    exact Option.isSome_iff_exists.2 ⟨_, hw⟩

/-- Importing rfc6664 puts it there. -/
example : ((importAll Package.modules 130 [Rfc6664.asModule.id] .start).bind
    (fun s => s.get smimeCapabilityMap rsaEncryption)).isSome = true := by decide +kernel

/-- Imports, then decode with a dictionary. -/
def decodeAfterWith (ns : List Py.Ident) (dict : List (Val × Ty)) (t : Ty) (b : Bytes) : Option (OVal × Bytes) :=
  (importAll Package.modules 130 ns .start).bind (fun s => decodeWith ⟨dict, false⟩ s.get t b)

/-- A capability: RSASSA-PSS signatures with SHA-256. -/
def pssCapability : Bytes :=
  [0x30, 28, 6, 9, 0x2a, 0x86, 0x48, 0x86, 0xf7, 13, 1, 1, 10, 0x30, 15] ++ sha256Null

/-- For a capability by itself the recipe works: the parameters are refused as those of a key, and decoded as those of a
signature with the dictionary of the comment.  The algorithm identifier within is resolved by its class's dictionary. -/
theorem recipe_works :
    decodeAfter [Rfc6664.asModule.id] Rfc5751.SMIMECapability.call.ty pssCapability = none ∧
    decodeAfterWith [Rfc6664.asModule.id, Rfc4055.asModule.id]
        [(.oid [1, 2, 840, 113549, 1, 1, 10], Rfc6664.RsaSsa_Pss_sig_caps.call.ty)]
        Rfc5751.SMIMECapability.call.ty pssCapability =
      some (.record (.ofList [.leaf (.oid [1, 2, 840, 113549, 1, 1, 10]), .opened Rfc6664.RsaSsa_Pss_sig_caps.call.ty
        (.record (.ofList [.record (.ofList [.leaf (.oid [2, 16, 840, 1, 101, 3, 4, 2, 1]),
          .opened Py.univ.Null.call.ty (.leaf .null)]), .leaf .absent, .leaf (.int 1)]))]), []) := by decide +kernel

end OpenTypes
end Props
end Verif
