import Verif.Spec.Governed
import Verif.Props.Objects
import Verif.Props.Schema

/-!
# C55: open types hold the types of the standards
-/

namespace Verif
namespace Props
namespace Governed

open Asn1 Py Verif.Std Open

/-! ## The declarations -/

/-- The open type fields a class declares itself. -/
def declared : Ty → List (String × OpenTy)
  | .seq _ _ cs => cs.toList.filterMap (fun p => p.1.openType.map (fun o => (p.1.name, o)))
  | _ => []

/-- All of them. -/
def declarations : List (String × String × OpenTy) := Package.types.flatMap (fun c => (declared c.2).map (fun o => (c.1, o)))

/-- The declaration is the one listed. -/
def agree (d : String × String × OpenTy) (r : OpenField) : Bool :=
  decide (d.1 = r.1) && decide (d.2.1 = r.2.1) && decide (d.2.2.governor = r.2.2.1) && r.2.2.2.is d.2.2.map

/-- Both lists hold the same, `rs` in the order of the classes except for some of `ms`. -/
def accounted : List (String × String × OpenTy) → List OpenField → List OpenField → Bool
  | [], [], [] => true
  | d :: ds, r :: rs, ms =>
    if agree d r then accounted ds rs ms
    else match ms with
      | m :: ms => agree d m && accounted ds (r :: rs) ms
      | [] => false
  | d :: ds, [], m :: ms => agree d m && accounted ds [] ms
  | _, _, _ => false

theorem declarations_table : accounted declarations openFields misdeclared = true := by decide +kernel

theorem accounted_left : ∀ (ds : List (String × String × OpenTy)) (rs ms : List OpenField), accounted ds rs ms = true →
    ∀ d ∈ ds, ∃ r, (r ∈ rs ∨ r ∈ ms) ∧ agree d r = true
  | [], _, _, _, d, hd => by simp at hd
  | e :: ds, r :: rs, ms, h, d, hd => by
    unfold accounted at h
    split at h
    · rename_i hm
      rcases List.mem_cons.1 hd with rfl | hd
      · exact ⟨r, .inl (by simp), hm⟩
      · obtain ⟨q, hq, hq2⟩ := accounted_left ds rs ms h d hd
        exact ⟨q, hq.imp (List.mem_cons_of_mem _) id, hq2⟩
    · cases ms with
      | nil => simp at h
      | cons m ms =>
        simp only [Bool.and_eq_true] at h
        rcases List.mem_cons.1 hd with rfl | hd
        · exact ⟨m, .inr (by simp), h.1⟩
        · obtain ⟨q, hq, hq2⟩ := accounted_left ds (r :: rs) ms h.2 d hd
          exact ⟨q, hq.imp id (List.mem_cons_of_mem _), hq2⟩
  | e :: ds, [], m :: ms, h, d, hd => by
    simp only [accounted, Bool.and_eq_true] at h
    rcases List.mem_cons.1 hd with rfl | hd
    · exact ⟨m, .inr (by simp), h.1⟩
    · obtain ⟨q, hq, hq2⟩ := accounted_left ds [] ms h.2 d hd
      exact ⟨q, hq.imp id (List.mem_cons_of_mem _), hq2⟩
  | e :: ds, [], [], h, d, hd => by simp [accounted] at h

theorem accounted_right : ∀ (ds : List (String × String × OpenTy)) (rs ms : List OpenField), accounted ds rs ms = true →
    ∀ r, r ∈ rs ∨ r ∈ ms → ∃ d ∈ ds, agree d r = true
  | [], [], [], _, r, hr => by simp at hr
  | [], _ :: _, _, h, _, _ => by simp [accounted] at h
  | [], [], _ :: _, h, _, _ => by simp [accounted] at h
  | e :: ds, r :: rs, ms, h, q, hq => by
    unfold accounted at h
    split at h
    · rename_i hm
      have : q = r ∨ (q ∈ rs ∨ q ∈ ms) := by
        rcases hq with hq | hq
        · exact (List.mem_cons.1 hq).imp id .inl
        · exact .inr (.inr hq)
      rcases this with rfl | hq
      · exact ⟨e, by simp, hm⟩
      · obtain ⟨d, hd, hd2⟩ := accounted_right ds rs ms h q hq
        exact ⟨d, List.mem_cons_of_mem _ hd, hd2⟩
    · cases ms with
      | nil => simp at h
      | cons m ms =>
        simp only [Bool.and_eq_true] at h
        have : q = m ∨ (q ∈ r :: rs ∨ q ∈ ms) := by
          rcases hq with hq | hq
          · exact .inr (.inl hq)
          · exact (List.mem_cons.1 hq).imp id .inr
        rcases this with rfl | hq
        · exact ⟨e, by simp, h.1⟩
        · obtain ⟨d, hd, hd2⟩ := accounted_right ds (r :: rs) ms h.2 q hq
          exact ⟨d, List.mem_cons_of_mem _ hd, hd2⟩
  | e :: ds, [], m :: ms, h, q, hq => by
    simp only [accounted, Bool.and_eq_true] at h
    have : q = m ∨ (q ∈ ([] : List OpenField) ∨ q ∈ ms) := by
      rcases hq with hq | hq
      · simp at hq
      · exact (List.mem_cons.1 hq).imp id .inr
    rcases this with rfl | hq
    · exact ⟨e, by simp, h.1⟩
    · obtain ⟨d, hd, hd2⟩ := accounted_right ds [] ms h.2 q hq
      exact ⟨d, List.mem_cons_of_mem _ hd, hd2⟩
  | _ :: _, [], [], h, _, _ => by simp [accounted] at h

/-- C55: every open type field of a class is one of a standard, with the governor and the object class that the
standard gives, or on the list of those that are not. -/
theorem declared_standard (c : String × Ty) (hc : c ∈ Package.types) (f : String) (o : OpenTy) (h : (f, o) ∈ declared c.2) :
    ∃ d, (c.1, f, o.governor, d) ∈ openFields ++ misdeclared ∧ d.is o.map = true := by
  have hm : (c.1, f, o) ∈ declarations := List.mem_flatMap.2 ⟨c, hc, List.mem_map.2 ⟨_, h, rfl⟩⟩
  obtain ⟨⟨n, f', g, d⟩, hr, ha⟩ := accounted_left _ _ _ declarations_table _ hm
  simp only [agree, Bool.and_eq_true, decide_eq_true_eq] at ha
  obtain ⟨⟨⟨rfl, rfl⟩, rfl⟩, ha⟩ := ha
  exact ⟨d, List.mem_append.2 hr, ha⟩

/-- C55: and all that are listed are declared. -/
theorem standard_declared (n f g : String) (d : Dict) (h : (n, f, g, d) ∈ openFields ++ misdeclared) :
    ∃ t, (n, t) ∈ Package.types ∧ ∃ o, (f, o) ∈ declared t ∧ o.governor = g ∧ d.is o.map = true := by
  obtain ⟨⟨n', f', o⟩, hd, ha⟩ := accounted_right _ _ _ declarations_table _ (List.mem_append.1 h)
  simp only [agree, Bool.and_eq_true, decide_eq_true_eq] at ha
  obtain ⟨⟨⟨rfl, rfl⟩, rfl⟩, ha⟩ := ha
  obtain ⟨c, hc, hm⟩ := List.mem_flatMap.1 hd
  obtain ⟨p, hp, he⟩ := List.mem_map.1 hm
  cases he
  exact ⟨c.2, hc, _, hp, rfl, ha⟩

/-! ## What decoding makes of them -/

theorem opensL_std {S : Side} {std : Ty} {ine : Bool} {t u : Ty} (hu : ∀ b x, decode std b = some x → decode u b = some x)
    {vs : Vals} {ws : OVals} (h : OpensL S ine t u vs ws) : ResolvedAll S std vs ws := by
  match h with
  | .nil _ _ _ => trivial
  | .cons _ _ _ b rest v w vs ws hd _ ho hl =>
    refine ⟨⟨_, hd, fun v' r' hs => ?_⟩, opensL_std hu hl⟩
    have := hu b _ hs
    rw [hd] at this
    cases this
    exact ⟨_, ho⟩
  termination_by structural vs

theorem opensV_std {S : Side} {std : Ty} {ine : Bool} {t u : Ty} (hu : ∀ b x, decode std b = some x → decode u b = some x)
    {v : Val} {w : OVal} (h : OpensV S ine t u v w) : ResolvedField S std v w := by
  cases h with
  | one _ _ _ b rest v w hd _ ho =>
    refine ⟨_, hd, fun v' r' hs => ?_⟩
    have := hu b _ hs
    rw [hd] at this
    cases this
    exact ⟨_, ho⟩
  | many _ _ _ _ _ vs ws hl => exact opensL_std hu hl

theorem opensF_known {S : Side} {u : Ty} {ds : Comps} {us : Vals} {f : Field} {t : Ty} {v : Val} {w : OVal}
    (h : OpensF S ds us f t v w) {o : OpenTy} {g : Val} (ho : f.openType = some o) (hg : fieldVal o.governor ds us = some g)
    (hr : S.registry o.map g = some u) : (v = .absent ∧ w = .leaf .absent) ∨ OpensV S f.mode.isOpt t u v w := by
  cases h with
  | absent => exact .inl ⟨rfl, rfl⟩
  | dflt _ _ _ _ _ _ hn =>
    rw [hn o g ho hg] at hr
    cases hr
  | plain _ _ _ _ _ _ hn =>
    rw [hn] at ho
    cases ho
  | unknown _ _ _ _ _ _ o' g' ho' hg' hr' =>
    rw [ho] at ho'
    cases ho'
    rw [hg] at hg'
    cases hg'
    rw [hr] at hr'
    cases hr'
  | known _ _ _ _ _ _ o' g' u' ho' hg' hr' _ hv =>
    rw [ho] at ho'
    cases ho'
    rw [hg] at hg'
    cases hg'
    rw [hr] at hr'
    cases hr'
    exact .inr hv

/-- The component of that name, if it is the first of it. -/
theorem opensC_field {S : Side} {ds : Comps} {us : Vals} : ∀ {cs : Comps} {vs : Vals} {ws : OVals}, OpensC S ds us cs vs ws →
    ∀ (f : Field) (t : Ty), cs.find f.name = some (f, t) →
      ∃ v w, fieldVal f.name cs vs = some v ∧ openedVal f.name cs ws = some w ∧ OpensF S ds us f t v w
  | .nil, _, _, _, f, t, hf => by simp [Comps.find] at hf
  | .cons g u cs, _, _, .cons _ _ _ _ _ v vs w ws h1 h2, f, t, hf => by
    by_cases hn : g.name = f.name
    · simp only [Comps.find, hn, if_true] at hf
      cases hf
      exact ⟨v, w, by simp [fieldVal], by simp [openedVal], h1⟩
    · simp only [Comps.find, hn, if_false] at hf
      obtain ⟨v', w', a, b, c⟩ := opensC_field h2 f t hf
      exact ⟨v', w', by simpa [fieldVal, hn] using a, by simpa [openedVal, hn] using b, c⟩

theorem find_of_nodup : ∀ (cs : Comps), (Schema.names cs).Nodup → ∀ (f : Field) (t : Ty), (f, t) ∈ cs.toList →
    cs.find f.name = some (f, t)
  | .nil, _, f, t, h => by simp [Comps.toList] at h
  | .cons g u cs, hn, f, t, h => by
    simp only [Schema.names, Comps.toList, List.map_cons, List.nodup_cons] at hn
    simp only [Comps.toList, List.mem_cons, Prod.mk.injEq] at h
    rcases h with ⟨rfl, rfl⟩ | h
    · simp [Comps.find]
    · have : g.name ≠ f.name := fun e => hn.1 (by rw [e]; exact List.mem_map.2 ⟨_, h, rfl⟩)
      simp only [Comps.find, this, if_false]
      exact find_of_nodup cs hn.2 f t h

/-- Decoding a class with open types: a field and what becomes of it. -/
theorem opened_field {s : State} {c : String × Ty} (hc : c ∈ Package.types) {b rest : Bytes} {w : OVal}
    (h : decodeOpen s c.2 b = some (w, rest)) {f : String} {o : OpenTy} (hf : (f, o) ∈ declared c.2) :
    ∃ st a cs vs ws, c.2 = .seq st a cs ∧ w = .record ws ∧ decode c.2 b = some (.record vs, rest) ∧
      ∃ x y, fieldVal f cs vs = some x ∧ openedVal f cs ws = some y ∧
        ∀ k u, fieldVal o.governor cs vs = some k → s.get o.map k = some u →
          (x = .absent ∧ y = .leaf .absent) ∨ ∃ ine t, OpensV { registry := s.get } ine t u x y := by
  obtain ⟨v, hd, hop⟩ := Open.open_sound s c.2 b rest w h
  match hct : c.2, hf with
  | .seq st a cs, hf =>
    rw [hct] at hop hd
    match hop with
    | .seq _ _ _ _ vs ws _ hcs =>
      obtain ⟨⟨fd, t⟩, hp, he⟩ := List.mem_filterMap.1 hf
      obtain ⟨o', ho, he⟩ := Option.map_eq_some_iff.1 he
      cases he
      have hn := Schema.component_names_distinct c hc cs a st (.inl (by rw [hct]; simp [Ty.nodes]))
      obtain ⟨x, y, hx, hy, hF⟩ := opensC_field hcs fd t (find_of_nodup cs hn fd t hp)
      refine ⟨st, a, cs, vs, ws, rfl, rfl, hd, x, y, hx, hy, fun k u hk hu => ?_⟩
      exact (opensF_known hF ho hk hu).imp id (fun h => ⟨_, _, h⟩)
  | .prim .., hf => simp [declared] at hf
  | .of .., hf => simp [declared] at hf
  | .choice .., hf => simp [declared] at hf
  | .bad .., hf => simp [declared] at hf

/-- C55: decoding with open types, when the module of a standard has been imported and the governor of an open type field holds
the identifier of one of its objects, leaves in the field, in place of each octet string that is an encoding of the object's
type, the value it encodes. -/
theorem opened_standard (s : State) (hs : Open.Reached s) (r : Std.Objects) (hr : r ∈ registries) (hl : r.module.id ∈ s.loaded)
    (o : Object) (ho : o ∈ r.objects) (hg : o.grade ≠ none) (hd : (r.module.id.name, o.cls, o.key) ∉ Objects.deviations)
    (hc : (o.cls.map, o.key) ∉ Registry.contested) (n f g : String) (hf : (n, f, g, .objects o.cls) ∈ openFields) :
    ∃ t, (n, t) ∈ Package.types ∧ ∀ b rest w, decodeOpen s t b = some (w, rest) →
      ∃ st a cs vs ws, t = .seq st a cs ∧ w = .record ws ∧ decode t b = some (.record vs, rest) ∧
        ∃ x y, fieldVal f cs vs = some x ∧ openedVal f cs ws = some y ∧
          (fieldVal g cs vs = some o.key → ResolvedField { registry := s.get } o.std x y) := by
  obtain ⟨t, ht, ot, hot, rfl, hm⟩ := standard_declared n f g _ (List.mem_append_left _ hf)
  have hm : ot.map = o.cls.map := by simpa [Dict.is] using hm
  obtain ⟨u, hu, hdec, _⟩ := Objects.object_standard s hs r hr hl o ho hg hd hc
  refine ⟨t, ht, fun b rest w h => ?_⟩
  obtain ⟨st, a, cs, vs, ws, h1, h2, h3, x, y, hx, hy, hopen⟩ := opened_field (c := (n, t)) ht h hot
  refine ⟨st, a, cs, vs, ws, h1, h2, h3, x, y, hx, hy, fun hk => ?_⟩
  rcases hopen o.key u hk (by rw [hm]; exact hu) with ⟨rfl, rfl⟩ | ⟨_, _, hv⟩
  · trivial
  · exact opensV_std hdec hv

theorem encrypted_shape : ∃ (a : Attrs) (f0 f1 f2 : Field) (t0 t1 t2 : Ty), Rfc2315.EncryptedContentInfo.call.ty =
    .seq false a (.cons f0 t0 (.cons f1 t1 (.cons f2 t2 .nil))) ∧
    f0.name = "contentType" ∧ f1.name = "contentEncryptionAlgorithm" ∧ f2.name = "encryptedContent" :=
  ⟨_, _, _, _, _, _, _, rfl, rfl, rfl, rfl⟩

/-- C55, an exception: what an EncryptedContentInfo of rfc2315.py holds is decoded as the plain content, although it is
encrypted, so that one with content type `data` is refused unless the encrypted octets happen to begin with an OCTET STRING. -/
theorem encrypted_refused (s : State) (hs : Reached s) (hl : Rfc2315.asModule.id ∈ s.loaded) (b rest x : Bytes) (alg : Val)
    (hp : decode Rfc2315.EncryptedContentInfo.call.ty b =
      some (.record (.ofList [.oid [1, 2, 840, 113549, 1, 7, 1], alg, .octets x]), rest))
    (hx : decode Rfc2315.Data.call.ty x = none) : decodeOpen s Rfc2315.EncryptedContentInfo.call.ty b = none := by
  cases h : decodeOpen s Rfc2315.EncryptedContentInfo.call.ty b with
  | none => rfl
  | some p =>
    obtain ⟨w, rest'⟩ := p
    have hm : ("rfc2315.EncryptedContentInfo", Rfc2315.EncryptedContentInfo.call.ty) ∈ Package.types :=
      Package.mem_types (m := Rfc2315.asModule) (c := ("rfc2315.EncryptedContentInfo", Rfc2315.EncryptedContentInfo))
        (List.mem_of_getElem? (i := 7) rfl) (List.mem_of_getElem? (i := 6) rfl)
    have hot : ("encryptedContent", (⟨"contentType", ObjClass.PKCS7_CONTENT.map⟩ : OpenTy)) ∈
        declared Rfc2315.EncryptedContentInfo.call.ty := by decide +kernel
    obtain ⟨st, a, cs, vs, ws, h1, _, h3, v, y, hv, _, hopen⟩ := opened_field hm h hot
    obtain ⟨a', f0, f1, f2, t0, t1, t2, hsh, n0, n1, n2⟩ := encrypted_shape
    rw [hsh] at h1
    cases h1
    rw [hp] at h3
    cases h3
    obtain ⟨fuel, ns, hi⟩ := hs
    have hget := (Registry.registered fuel ns s hi Rfc2315.asModule (List.mem_of_getElem? (i := 7) rfl) hl
      ObjClass.PKCS7_CONTENT.map (.oid [1, 2, 840, 113549, 1, 7, 1]) Rfc2315.Data.call.ty (by decide +kernel)).2 (by decide +kernel)
    have hv' : v = .octets x := by
      simp [fieldVal, Vals.ofList, n0, n1, n2] at hv
      exact hv.symm
    subst hv'
    rcases hopen _ _ (by simp [fieldVal, Vals.ofList, n0]) hget with ⟨h, _⟩ | ⟨_, _, h⟩
    · cases h
    · cases h with
      | one _ _ _ _ _ _ _ hd => rw [hx] at hd; cases hd

/-- Such a message: DES-EDE3-CBC with an initialization vector, and eight octets. -/
def encryptedExample : Bytes :=
  [0x30, 0x2b, 6, 9, 0x2a, 0x86, 0x48, 0x86, 0xf7, 13, 1, 7, 1, 0x30, 0x14, 6, 8, 0x2a, 0x86, 0x48, 0x86, 0xf7, 13, 3, 7,
   4, 8, 1, 2, 3, 4, 5, 6, 7, 8, 0x80, 8, 0xfa, 0xce, 1, 2, 3, 4, 5, 6]

/-- It meets the hypotheses of `encrypted_refused`. -/
example : (∃ alg, decode Rfc2315.EncryptedContentInfo.call.ty encryptedExample =
      some (.record (.ofList [.oid [1, 2, 840, 113549, 1, 7, 1], alg, .octets [0xfa, 0xce, 1, 2, 3, 4, 5, 6]]), [])) ∧
    decode Rfc2315.Data.call.ty [0xfa, 0xce, 1, 2, 3, 4, 5, 6] = none :=
  ⟨⟨.record (.ofList [.oid [1, 2, 840, 113549, 3, 7], .octets [4, 8, 1, 2, 3, 4, 5, 6, 7, 8]]), by decide +kernel⟩, by decide +kernel⟩

/-- MGF1 with SHA-256: an AlgorithmIdentifier whose parameters are an AlgorithmIdentifier. -/
def mgf1Example : Bytes :=
  [0x30, 0x1a, 6, 9, 0x2a, 0x86, 0x48, 0x86, 0xf7, 13, 1, 1, 8, 0x30, 13, 6, 9, 0x60, 0x86, 0x48, 1, 0x65, 3, 4, 2, 1, 5, 0]

/-- The hypotheses of `opened_standard` are met by the object id-mgf1 of RFC 4055 and rfc5280.AlgorithmIdentifier: the parameters
are resolved, and those within them. -/
example :
    (⟨.ALGORITHM, .oid [1, 2, 840, 113549, 1, 1, 8], Std.Rfc5280.AlgorithmIdentifier, some .same⟩ : Object) ∈
      Std.Rfc4055.registered.objects ∧
    (Std.Rfc4055.registered.module.id.name, ObjClass.ALGORITHM, Val.oid [1, 2, 840, 113549, 1, 1, 8]) ∉ Objects.deviations ∧
    (ObjClass.ALGORITHM.map, Val.oid [1, 2, 840, 113549, 1, 1, 8]) ∉ Registry.contested ∧
    ("rfc5280.AlgorithmIdentifier", "parameters", "algorithm", Dict.objects .ALGORITHM) ∈ openFields ∧
    decodeAfter [Rfc4055.asModule.id] Verif.Rfc5280.AlgorithmIdentifier.call.ty mgf1Example =
      some (.record (.ofList [.leaf (.oid [1, 2, 840, 113549, 1, 1, 8]),
        .opened Verif.Rfc5280.AlgorithmIdentifier.call.ty (.record (.ofList [.leaf (.oid [2, 16, 840, 1, 101, 3, 4, 2, 1]),
          .opened Py.univ.Null.call.ty (.leaf .null)]))]), []) :=
  ⟨List.mem_of_getElem? (i := 5) rfl, by decide +kernel, by decide +kernel, by decide +kernel, by decide +kernel⟩

end Governed
end Props
end Verif
