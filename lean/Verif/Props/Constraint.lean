import Verif.Props.Codec
import Verif.Props.Tagging
import Verif.Props.Ber
import Verif.Spec.Constraint

/-!
# Constraints

C15: decoded values meet the constraints, stated with `Spec.Meets`.  C46: what `subtype()` does to
the values a type takes.
-/

namespace Verif
namespace Props
namespace Constraint

open Verif.Asn1 Verif.Spec

theorem above_iff (b : Bound) (i : Int) : b.le (.fin i) = true ↔ above b i := by
  cases b <;> simp [Bound.le, above]

theorem below_iff (b : Bound) (i : Int) : (Bound.fin i).le b = true ↔ below b i := by
  cases b <;> simp [Bound.le, below]

theorem len_iff (s : Subject) (n : Nat) : s.len = some n ↔ HasSize s n := by
  constructor
  · intro h
    unfold Subject.len at h
    split at h <;> simp only [Option.some.injEq, reduceCtorEq] at h <;> subst h <;> constructor
  · intro h
    cases h <;> rfl

mutual
/-- C15: the model's evaluation of constraints says what it should, for every constraint and subject. -/
theorem ok_iff : ∀ (c : Asn1.Constraint) (s : Subject), c.ok s = true ↔ Meets c s
  | .inter cs, s => by
    unfold Constraint.ok Meets
    exact all_iff cs s
  | .union .nil, s => by simp [Constraint.ok, Meets]
  | .union (.cons c cs), s => by
    simp only [Constraint.ok, Meets, MeetsSome, Bool.or_eq_true, ok_iff c s, any_iff cs s, reduceCtorEq, false_or]
  | .size lo hi, s => by
    simp only [Constraint.ok, Meets]
    split
    · rename_i n hn
      rw [Bool.and_eq_true, above_iff, below_iff]
      constructor
      · exact fun h => ⟨n, (len_iff s n).1 hn, h⟩
      · rintro ⟨m, hm, h⟩
        rw [← len_iff, hn] at hm
        cases hm
        exact h
    · rename_i hn
      simp only [Bool.false_eq_true, false_iff, not_exists, not_and]
      intro n h
      rw [← len_iff, hn] at h
      cases h
  | .range lo hi, .simple v => by
    cases v <;> simp [Constraint.ok, Meets, above_iff, below_iff]
  | .range lo hi, .mapping n l => by simp [Constraint.ok, Meets]
  | .single [], s => by simp [Constraint.ok, Meets]
  | .single (v :: vs), .simple w => by
    simp only [Constraint.ok, Meets, reduceCtorEq, false_or, List.contains_iff_mem, Subject.simple.injEq]
    exact ⟨fun h => ⟨w, h, rfl⟩, fun ⟨u, h, e⟩ => e ▸ h⟩
  | .single (v :: vs), .mapping n l => by simp [Constraint.ok, Meets]
  | .alphabet [], s => by simp [Constraint.ok, Meets]
  | .alphabet (c :: cs), .simple v => by
    cases v <;> simp [Constraint.ok, Meets, Subject.charsIn]
  | .alphabet (c :: cs), .mapping n l => by
    cases n <;> simp [Constraint.ok, Meets, Subject.charsIn]
  | .withComps [], s => by cases s <;> simp [Constraint.ok, Meets]
  | .withComps (p :: ps), .simple v => by simp [Constraint.ok, Meets]
  | .withComps (p :: ps), .mapping n l => by
    simp only [Constraint.ok, Meets, reduceCtorEq, false_or, List.all_eq_true, beq_iff_eq]
    constructor
    · exact fun h => ⟨n, l, rfl, fun q hq => by rw [← h q hq]; simp⟩
    · rintro ⟨m, l', e, h⟩ q hq
      cases e
      have := h q hq
      rw [Bool.eq_iff_iff, ← this]
      simp
  | .invalid, s => by simp [Constraint.ok, Meets]
theorem all_iff : ∀ (cs : Constraints) (s : Subject), cs.all s = true ↔ MeetsAll cs s
  | .nil, s => by simp [Constraints.all, MeetsAll]
  | .cons c cs, s => by simp only [Constraints.all, MeetsAll, Bool.and_eq_true, ok_iff c s, all_iff cs s]
theorem any_iff : ∀ (cs : Constraints) (s : Subject), cs.any s = true ↔ MeetsSome cs s
  | .nil, s => by simp [Constraints.any, MeetsSome]
  | .cons c cs, s => by simp only [Constraints.any, MeetsSome, Bool.or_eq_true, ok_iff c s, any_iff cs s]
end

mutual
theorem obeys_iff : ∀ (t : Ty) (v : Val), t.admits v = true → Obeys t v
  | .prim k a, v, h => by
    by_cases hk : k = .any
    · subst hk
      cases v <;> simp [Ty.admits] at h
      exact ⟨_, rfl⟩
    · have h' : (primShape k v && a.spec.ok (.simple v)) = true := by
        cases k <;> first | exact absurd rfl hk | simpa [Ty.admits] using h
      rw [Bool.and_eq_true, ok_iff] at h'
      cases k <;> first | exact absurd rfl hk | exact h'
  | .seq s a cs, v, h => by
    cases v <;> simp only [Ty.admits, Bool.false_eq_true] at h
    rename_i vs
    rw [Bool.and_eq_true] at h
    refine ⟨vs, rfl, obeys_each cs vs h.1, fun hc => ?_⟩
    have h2 := h.2
    rw [closed_noOpen] at hc
    rw [hc] at h2
    rw [present_names, ← ok_iff]
    simpa using h2
  | .of s a t, v, h => by
    cases v <;> simp only [Ty.admits, Bool.false_eq_true] at h
    rename_i vs
    refine ⟨vs.toList, by rw [Vals.ofList_toList], fun w hw => obeys_iff t w ?_⟩
    rw [Vals.every_iff, List.all_eq_true] at h
    exact h w hw
  | .choice a cs, v, h => by
    cases v <;> simp only [Ty.admits, Bool.false_eq_true] at h
    rename_i i w
    exact ⟨i, w, rfl, obeys_chosen cs i w h⟩
  | .bad w, v, h => by simp [Ty.admits] at h
theorem obeys_each : ∀ (cs : Comps) (vs : Vals), cs.admits vs = true → ObeysEach cs vs
  | .nil, vs, h => by cases vs <;> simp [Comps.admits] at h; rfl
  | .cons f t cs, vs, h => by
    cases vs with
    | nil => simp [Comps.admits] at h
    | cons w ws =>
      simp only [Comps.admits, Bool.and_eq_true] at h
      refine ⟨w, ws, rfl, obeys_each cs ws h.2, ?_⟩
      have h1 := h.1
      split at h1
      · exact .inl (obeys_iff t w h1)
      · rename_i hm
        rw [Bool.or_eq_true, beq_iff_eq] at h1
        exact h1.elim (fun e => .inr (.inl ⟨hm, e⟩)) (fun e => .inl (obeys_iff t w e))
      · rename_i d hm
        rw [Bool.or_eq_true, beq_iff_eq] at h1
        exact h1.elim (fun e => .inr (.inr (e ▸ hm))) (fun e => .inl (obeys_iff t w e))
theorem obeys_chosen : ∀ (cs : Comps) (i : Nat) (v : Val), cs.admitsAlt i v = true → ObeysChosen cs i v
  | .nil, i, v, h => by simp [Comps.admitsAlt] at h
  | .cons f t cs, 0, v, h => by
    simp only [Comps.admitsAlt] at h
    exact obeys_iff t v h
  | .cons f t cs, i + 1, v, h => by
    simp only [Comps.admitsAlt] at h
    exact obeys_chosen cs i v h
end

/-- C15: every value the decoder returns, for any type and any octets, obeys the type. -/
theorem decoded_obeys (t : Ty) (b r : Bytes) (v : Val) (h : decode t b = some (v, r)) : Obeys t v :=
  obeys_iff t v (Codec.decoded_admitted t b r v h)

-- C15: a country name of three letters is refused, one of two letters is read
example : decode (.prim (.str .ascii) ⟨[⟨.universal, false, 19⟩], .size (.fin 2) (.fin 2), []⟩) [19, 3, 65, 66, 67] = none ∧
    (decode (.prim (.str .ascii) ⟨[⟨.universal, false, 19⟩], .size (.fin 2) (.fin 2), []⟩) [19, 2, 65, 66]).isSome := by
  decide +kernel

/-! ## C46: subtype(subtypeSpec=c) -/

theorem all_append (c : Asn1.Constraint) : ∀ (cs : Constraints) (s : Subject),
    MeetsAll (Py.appendC cs c) s ↔ MeetsAll cs s ∧ Meets c s
  | .nil, s => by simp [Py.appendC, MeetsAll]
  | .cons d cs, s => by simp only [Py.appendC, MeetsAll, all_append c cs s, and_assoc]

theorem some_append (c : Asn1.Constraint) : ∀ (cs : Constraints) (s : Subject),
    MeetsSome (Py.appendC cs c) s ↔ MeetsSome cs s ∨ Meets c s
  | .nil, s => by simp [Py.appendC, MeetsSome]
  | .cons d cs, s => by simp only [Py.appendC, MeetsSome, some_append c cs s, or_assoc]

/-- The constraint of a type replaced. -/
def withSpec (c : Asn1.Constraint) (t : Ty) : Ty := t.mapAttrs (fun a => { a with spec := c })

def isChoice : Ty → Bool
  | .choice _ _ => true
  | _ => false

theorem length_toList : ∀ vs : Vals, vs.toList.length = vs.length
  | .nil => rfl
  | .cons v vs => by simp [Vals.toList, Vals.length, length_toList vs]

/-- The constraint of a type that is not a CHOICE restricts its values and does nothing else. -/
theorem valid_spec (t : Ty) (hc : isChoice t = false) (c : Asn1.Constraint) (v : Val) :
    (withSpec c t).valid v = true ↔ (withSpec (.inter .nil) t).valid v = true ∧ Meets c (subject t v) := by
  cases t with
  | prim k a =>
    simp only [withSpec, Ty.mapAttrs, Ty.valid, subject, Bool.and_eq_true, ok_iff]
    simp only [Meets, MeetsAll]
    exact ⟨fun h => ⟨⟨⟨h.1.1, trivial⟩, h.2⟩, h.1.2⟩, fun h => ⟨⟨h.1.1.1, h.2⟩, h.1.2⟩⟩
  | seq s a cs =>
    cases v <;> simp [withSpec, Ty.mapAttrs, Ty.valid, subject, ok_iff, present_names]
    simp [Meets, MeetsAll]
  | of s a u =>
    cases v <;> simp [withSpec, Ty.mapAttrs, Ty.valid, subject, ok_iff, length_toList]
    simp [Meets, MeetsAll]
  | choice a cs => simp [isChoice] at hc
  | bad w => simp [withSpec, Ty.mapAttrs, Ty.valid]

theorem withSpec_self (t : Ty) : withSpec t.attrs.spec t = t := by cases t <;> rfl
theorem withSpec_withSpec (c d : Asn1.Constraint) (t : Ty) : withSpec c (withSpec d t) = withSpec c t := by cases t <;> rfl
theorem subject_withSpec (c : Asn1.Constraint) (t : Ty) (v : Val) : subject (withSpec c t) v = subject t v := by
  cases t <;> cases v <;> rfl

theorem subtype_ty (x : Py.Obj) (c : Asn1.Constraint) (hb : (x.addSubtypeSpec c).isBad = false) :
    (x.addSubtypeSpec c).ty = withSpec (if x.isPrim then x.ty.attrs.spec.add c
      else Py.moveSizeSpec x.size (x.ty.attrs.spec.add c)) x.ty := by
  obtain ⟨ty, size, val⟩ := x
  cases ty with
  | prim k a =>
    have := Tagging.make_prim ⟨.prim k { a with spec := a.spec.add c }, size, val⟩ k _ rfl hb
    change (Py.Obj.make _).ty = _
    erw [this]
    simp [Py.Obj.isPrim, withSpec, Ty.mapAttrs, Ty.attrs]
  | bad w => simp [Py.Obj.addSubtypeSpec, Py.Obj.withAttrs, Py.Obj.make, Py.Obj.isBad, Ty.mapAttrs] at hb
  | seq s a cs =>
    have := Tagging.make_cons ⟨.seq s { a with spec := a.spec.add c } cs, size, val⟩ rfl hb
    change (Py.Obj.make _).ty = _
    erw [this.2]
    rfl
  | of s a t =>
    have := Tagging.make_cons ⟨.of s { a with spec := a.spec.add c } t, size, val⟩ rfl hb
    change (Py.Obj.make _).ty = _
    erw [this.2]
    rfl
  | choice a cs =>
    have := Tagging.make_cons ⟨.choice { a with spec := a.spec.add c } cs, size, val⟩ rfl hb
    change (Py.Obj.make _).ty = _
    erw [this.2]
    rfl

/-- C46: `x.subtype(subtypeSpec=c)` takes exactly the values of `x` that meet `c`, if the constraint
of `x` is an intersection and `x` has no `sizeSpec`. -/
theorem subtype_narrows (x : Py.Obj) (c : Asn1.Constraint) (cs : Constraints) (hx : x.ty.attrs.spec = .inter cs)
    (hs : x.size.truthy = false) (hc : isChoice x.ty = false) (hb : (x.addSubtypeSpec c).isBad = false) (v : Val) :
    (x.addSubtypeSpec c).ty.valid v = true ↔ x.ty.valid v = true ∧ Meets c (subject x.ty v) := by
  have e : Py.moveSizeSpec x.size (x.ty.attrs.spec.add c) = x.ty.attrs.spec.add c := by
    simp [Py.moveSizeSpec, hs]
  have e2 := valid_spec x.ty hc x.ty.attrs.spec v
  rw [withSpec_self] at e2
  rw [subtype_ty x c hb, e, ite_self, valid_spec x.ty hc (x.ty.attrs.spec.add c), e2, and_assoc]
  rw [hx]
  cases c <;> simp only [Asn1.Constraint.add, Meets, all_append, and_false]

/-- C46: on a class with a `sizeSpec` a further constraint is ignored. -/
theorem subtype_ignored (x : Py.Obj) (c : Asn1.Constraint) (cs : Constraints) (d : Asn1.Constraint)
    (hx : x.ty.attrs.spec = .inter (.cons d cs)) (hp : x.isPrim = false) (hc : isChoice x.ty = false)
    (hs : x.size.truthy = true) (hb : (x.addSubtypeSpec c).isBad = false) (v : Val) :
    (x.addSubtypeSpec c).ty.valid v = true ↔
      (withSpec (.inter .nil) x.ty).valid v = true ∧ Meets x.size (subject x.ty v) := by
  have e : Py.moveSizeSpec x.size (x.ty.attrs.spec.add c) = x.size := by
    rw [hx]
    unfold Py.moveSizeSpec
    rw [if_pos hs, if_pos]
    cases c <;> rfl
  rw [subtype_ty x c hb, hp, if_neg (by simp), e, valid_spec x.ty hc]

/-- C46: on a class whose constraint is a single one a further constraint raises `TypeError`. -/
theorem subtype_raises (x : Py.Obj) (c : Asn1.Constraint) (hs : x.size.truthy = false)
    (hx : (∃ lo hi, x.ty.attrs.spec = .size lo hi) ∨ (∃ lo hi, x.ty.attrs.spec = .range lo hi)) :
    (x.addSubtypeSpec c).isBad = true := by
  have e : x.ty.attrs.spec.add c = .invalid := by
    rcases hx with ⟨lo, hi, h⟩ | ⟨lo, hi, h⟩ <;> rw [h] <;> cases c <;> rfl
  obtain ⟨ty, size, val⟩ := x
  cases ty <;>
    simp_all [Py.Obj.addSubtypeSpec, Py.Obj.withAttrs, Py.Obj.make, Ty.mapAttrs, Ty.attrs, Py.moveSizeSpec, Py.Obj.fail, Py.Obj.isBad]

/-- C46: on a class whose constraint is a list of values or a union, further values are added instead
of removed. -/
theorem subtype_widens (x : Py.Obj) (vs ws : List Val) (hv : vs ≠ []) (hw : ws ≠ []) (hx : x.ty.attrs.spec = .single vs)
    (hs : x.size.truthy = false) (hc : isChoice x.ty = false)
    (hb : (x.addSubtypeSpec (.single ws)).isBad = false) (v : Val) :
    (x.addSubtypeSpec (.single ws)).ty.valid v = true ↔
      (withSpec (.inter .nil) x.ty).valid v = true ∧ (Meets (.single vs) (subject x.ty v) ∨ Meets (.single ws) (subject x.ty v)) := by
  have e : Py.moveSizeSpec x.size (x.ty.attrs.spec.add (.single ws)) = .single (vs ++ ws) := by
    simp [Py.moveSizeSpec, hs, hx, Asn1.Constraint.add]
  have e' : x.ty.attrs.spec.add (.single ws) = .single (vs ++ ws) := by rw [hx]; rfl
  rw [subtype_ty x _ hb, e, e', ite_self, valid_spec x.ty hc]
  simp only [Meets, List.append_eq_nil_iff, hv, hw, and_self, false_or, List.mem_append]
  apply and_congr_right
  intro _
  constructor
  · rintro ⟨u, h | h, e⟩
    · exact .inl ⟨u, h, e⟩
    · exact .inr ⟨u, h, e⟩
  · rintro (⟨u, h, e⟩ | ⟨u, h, e⟩)
    · exact ⟨u, .inl h, e⟩
    · exact ⟨u, .inr h, e⟩

theorem union_widens (x : Py.Obj) (c d : Asn1.Constraint) (hi : c ≠ .invalid) (cs : Constraints) (hx : x.ty.attrs.spec = .union (.cons d cs))
    (hs : x.size.truthy = false) (hc : isChoice x.ty = false)
    (hb : (x.addSubtypeSpec c).isBad = false) (v : Val) :
    (x.addSubtypeSpec c).ty.valid v = true ↔
      (withSpec (.inter .nil) x.ty).valid v = true ∧ (Meets x.ty.attrs.spec (subject x.ty v) ∨ Meets c (subject x.ty v)) := by
  have e : Py.moveSizeSpec x.size (x.ty.attrs.spec.add c) = x.ty.attrs.spec.add c := by
    simp [Py.moveSizeSpec, hs]
  rw [subtype_ty x c hb, e, ite_self, valid_spec x.ty hc, hx]
  apply and_congr_right
  intro _
  cases c <;> simp only [Asn1.Constraint.add, Meets, Py.appendC, MeetsSome, some_append, reduceCtorEq, false_or, or_assoc, or_false]
  exact absurd rfl hi

/-- C46: on a CHOICE a further constraint is ignored. -/
theorem choice_ignored (x : Py.Obj) (c : Asn1.Constraint) (hc : isChoice x.ty = true)
    (hb : (x.addSubtypeSpec c).isBad = false) (v : Val) : (x.addSubtypeSpec c).ty.valid v = x.ty.valid v := by
  rw [subtype_ty x c hb]
  cases h : x.ty <;> simp [isChoice, h] at hc
  cases v <;> rfl

/-! Every class of the package, by what happens when a user puts a further constraint on it. -/

inductive Effect where
  /-- the values are those that also meet the constraint -/
  | narrowed
  /-- the constraint has no effect -/
  | ignored
  /-- `TypeError` -/
  | raises
  /-- values that meet the constraint are added -/
  | widened
  deriving DecidableEq

def effect (x : Py.Obj) : Effect :=
  if isChoice x.ty || x.size.truthy then .ignored
  else match x.ty.attrs.spec with
    | .inter _ => .narrowed
    | .size _ _ => .raises
    | .range _ _ => .raises
    | .withComps _ => .raises
    | .invalid => .raises
    | _ => .widened

def objects : List (String × Py.Obj) := Package.modules.flatMap (fun m => m.classes.map (fun c => (c.1, c.2.call)))

/-- C46: the classes of the package. -/
theorem effects : ((objects.filter (fun c => effect c.2 = .narrowed)).length = 1368 ∧
    (objects.filter (fun c => effect c.2 = .ignored)).length = 320 ∧
    (objects.filter (fun c => effect c.2 = .raises)).length = 127) ∧
    (objects.filter (fun c => effect c.2 = .widened)).map Prod.fst =
      ["rfc2985.GenderString", "rfc3739.PredefinedBiometricType", "rfc3739.SemanticsInformation", "rfc4357.Gost28147_89_ParamSet",
       "rfc4357.GostR3410_94_ParamSetParameters_t", "rfc4357.GostR3410_94_PublicKey", "rfc4357.GostR3411_94_DigestParameters",
       "rfc4490.Gost28147_89_ParamSet", "rfc4491.GostR3410_94_PublicKey", "rfc5084.AES_CCM_ICVlen", "rfc6031.Encoding",
       "rfc6031.PSKCKeyUsage", "rfc6031.PINUsageMode", "rfc6211.CMSAlgorithmProtection", "rfc6664.DSAKeySize",
       "rfc7508.HeaderFieldName", "rfc8226.JWTClaimConstraints"] := by
  decide +kernel

/-- C46: for the first 1368. -/
theorem class_narrowed (c : String × Py.Obj) (_ : c ∈ objects) (he : effect c.2 = .narrowed) (d : Asn1.Constraint)
    (hb : (c.2.addSubtypeSpec d).isBad = false) (v : Val) :
    (c.2.addSubtypeSpec d).ty.valid v = true ↔ c.2.ty.valid v = true ∧ Meets d (subject c.2.ty v) := by
  unfold effect at he
  split at he
  · cases he
  · rename_i h
    rw [Bool.or_eq_true, not_or, Bool.not_eq_true, Bool.not_eq_true] at h
    split at he
    · rename_i cs hx
      exact subtype_narrows c.2 d cs hx h.2 h.1 hb v
    all_goals cases he

-- C46: a narrower serial number
example : (Rfc5280.CertificateSerialNumber.call.addSubtypeSpec (.range (.fin 1) .inf)).isBad = false ∧
    effect Rfc5280.CertificateSerialNumber.call = .narrowed := by decide +kernel
-- C46: GeneralNames restricted to one name still takes two
example : (Rfc5280.GeneralNames.call.addSubtypeSpec (.size (.fin 1) (.fin 1))).ty.valid
    (.list (.ofList [.alt 1 (.str ['a']), .alt 1 (.str ['b'])])) = true := by decide +kernel
example : Rfc5280.GeneralNames.call.isPrim = false ∧ Rfc5280.GeneralNames.call.size.truthy = true ∧
    Rfc5280.GeneralNames.call.ty.attrs.spec = .inter (.cons (.size (.fin 1) .inf) .nil) := by decide +kernel
-- C46: nothing can be put on BaseDistance
example : effect Rfc5280.BaseDistance.call = .raises ∧ Rfc5280.BaseDistance.call.size.truthy = false ∧
    Rfc5280.BaseDistance.call.ty.attrs.spec = .range (.fin 0) .inf := by decide +kernel
-- C46: the values of `Encoding` and a further one
example : (Rfc6031.Encoding.call.addSubtypeSpec (.single [.str ['X']])).ty.valid (.str ['X']) = true ∧
    Rfc6031.Encoding.call.ty.valid (.str ['X']) = false := by decide +kernel

end Constraint
end Props
end Verif
