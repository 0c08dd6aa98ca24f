import Verif.Asn1.DerLemmas
import Verif.Py.Obj
import Verif.Gen.Rfc5280

/-!
# What tagging does to an encoding

C40: `subtype(implicitTag=...)` and `subtype(explicitTag=...)`, the two calls every module writes its tagged
components with, against X.690 8.14.
-/

namespace Verif
namespace Props
namespace Tagging

open Asn1

theorem wrap_append (isC : Bool) : ∀ (ts us : TagSet) (c : Bytes), wrap isC (ts ++ us) c = (wrap isC ts c).bind (wrap isC us)
  | [], us, c => rfl
  | t :: ts, us, c => by
    simp only [List.cons_append, wrap]
    cases tlv t isC c with
    | none => rfl
    | some b => exact wrap_append isC ts us b

/-- The encoding without the outermost step: all that the value and the components contribute. -/
def inner : Ty → Val → Option Bytes
  | .prim k _, v => encPrim k v
  | .seq isSet a cs, .record vs =>
    if a.spec.ok (.mapping (presentNames cs vs).length (presentNames cs vs)) then
      (encComps cs vs).map (fun ps => (if isSet then sortBy tagsLe Prod.fst ps else ps).flatMap Prod.snd)
    else none
  | .of isSet a t, .list vs =>
    if a.spec.ok (.mapping vs.length []) then
      (mapOpt (fun v => (enc false t v).map (fun b => (b, v))) vs.toList).map
        (fun ps => (if isSet then sortChunks ps else ps).flatMap Prod.fst)
    else none
  | .choice _ cs, .alt i v => encAlt false cs i v
  | _, _ => none

/-- Whether the outer tags are forced to be constructed. -/
def forced : Ty → Bool
  | .prim _ _ => false
  | _ => true

theorem encode_inner (t : Ty) (v : Val) : encode t v = (inner t v).bind (wrap (forced t) t.tags) := by
  cases t with
  | prim k a => simp [encode, enc, inner, forced, Ty.tags]
  | seq s a cs =>
    cases v <;> simp only [encode, enc, inner, forced, Ty.tags] <;> try rfl
    split
    · cases h : encComps cs _ <;> simp
    · rfl
  | of s a t =>
    cases v <;> simp only [encode, enc, inner, forced, Ty.tags] <;> try rfl
    split
    · cases h : mapOpt _ _ <;> simp
    · rfl
  | choice a cs =>
    cases v <;> simp only [encode, enc, inner, forced, Ty.tags] <;> try rfl
    cases h : encAlt false cs _ _ <;> simp
  | bad w => cases v <;> simp [encode, enc, inner]

/-- Two types that differ in their tags, in their named values, and in the wording of their constraint. -/
def Recast (t u : Ty) (f : TagSet → TagSet) : Prop :=
  ∃ g : Attrs → Attrs, u = t.mapAttrs g ∧ (g t.attrs).tags = f t.tags ∧ ∀ s, (g t.attrs).spec.ok s = t.attrs.spec.ok s

theorem recast_inner {t u : Ty} {f : TagSet → TagSet} (h : Recast t u f) (v : Val) : inner u v = inner t v ∧ forced u = forced t := by
  obtain ⟨g, rfl, _, hs⟩ := h
  cases t with
  | prim => exact ⟨rfl, rfl⟩
  | seq s a cs =>
    refine ⟨?_, rfl⟩
    cases v <;> simp only [Ty.mapAttrs, inner]
    have := hs
    simp only [Ty.attrs] at this
    rw [this]
  | of s a t =>
    refine ⟨?_, rfl⟩
    cases v <;> simp only [Ty.mapAttrs, inner]
    have := hs
    simp only [Ty.attrs] at this
    rw [this]
  | choice a cs => exact ⟨by cases v <;> rfl, rfl⟩
  | bad w => exact ⟨rfl, rfl⟩

theorem recast_tags {t u : Ty} {f : TagSet → TagSet} (h : Recast t u f) (hb : ∀ w, t ≠ .bad w) : u.tags = f t.tags := by
  obtain ⟨g, rfl, h, _⟩ := h
  rw [← h]
  cases t with
  | bad w => exact absurd rfl (hb w)
  | _ => rfl

/-! ## The calls -/

theorem ok_add (s c : Constraint) (hs : s.truthy = false) (hne : s.add c ≠ .invalid) (x : Subject) : (s.add c).ok x = c.ok x := by
  cases s with
  | inter cs => cases cs <;> simp [Constraint.truthy] at hs; cases c <;> simp_all [Constraint.add, Py.appendC, Constraint.ok, Constraints.all]
  | union cs => cases cs <;> simp [Constraint.truthy] at hs; cases c <;> simp_all [Constraint.add, Py.appendC, Constraint.ok, Constraints.any]
  | single vs => cases vs <;> simp [Constraint.truthy] at hs; cases c <;> simp_all [Constraint.add]
  | alphabet vs => cases vs <;> simp [Constraint.truthy] at hs; cases c <;> simp_all [Constraint.add]
  | withComps vs => cases c <;> simp_all [Constraint.add]
  | _ => simp [Constraint.truthy] at hs

theorem truthy_add (s c : Constraint) (hs : s.truthy = false) (hc : c.truthy = true) (hne : s.add c ≠ .invalid) : (s.add c).truthy = true := by
  cases s with
  | inter cs => cases cs <;> simp [Constraint.truthy] at hs; cases c <;> simp_all [Constraint.add, Py.appendC, Constraint.truthy]
  | union cs => cases cs <;> simp [Constraint.truthy] at hs; cases c <;> simp_all [Constraint.add, Py.appendC, Constraint.truthy]
  | single vs => cases vs <;> simp [Constraint.truthy] at hs; cases c <;> simp_all [Constraint.add]
  | alphabet vs => cases vs <;> simp [Constraint.truthy] at hs; cases c <;> simp_all [Constraint.add]
  | withComps vs => cases c <;> simp_all [Constraint.add]
  | _ => simp [Constraint.truthy] at hs

/-- Applying `_moveSizeSpec` once more changes the constraint at most in its wording. -/
theorem move_again (size spec : Constraint) (h1 : Py.moveSizeSpec size spec ≠ .invalid) :
    ∀ x, (Py.moveSizeSpec size (Py.moveSizeSpec size spec)).ok x = (Py.moveSizeSpec size spec).ok x := by
  intro x
  unfold Py.moveSizeSpec at *
  cases hz : size.truthy
  · simp
  · cases hs : spec.truthy
    · simp only [hz, hs, if_true, Bool.false_eq_true, if_false] at h1 ⊢
      rw [truthy_add spec size hs hz h1]
      simp only [if_true]
      exact (ok_add spec size hs h1 x).symm
    · simp [hz]

theorem make_prim (o : Py.Obj) (k : Prim) (a : Attrs) (h : o.ty = .prim k a) (hb : o.make.isBad = false) : o.make = o := by
  unfold Py.Obj.make at hb ⊢
  rw [h] at hb ⊢
  simp only at hb ⊢
  split at hb
  · simp [Py.Obj.fail, Py.Obj.isBad] at hb
  · rename_i h1 h2; simp_all
  · split at hb
    · rename_i h1 h2 h3; simp_all
    · simp [Py.Obj.fail, Py.Obj.isBad] at hb

theorem make_cons (o : Py.Obj) (hp : o.isPrim = false) (hb : o.make.isBad = false) :
    Py.moveSizeSpec o.size o.ty.attrs.spec ≠ .invalid ∧
    o.make = ⟨o.ty.mapAttrs (fun a => { a with spec := Py.moveSizeSpec o.size o.ty.attrs.spec }), o.size, none⟩ := by
  obtain ⟨ty, size, val⟩ := o
  cases ty with
  | prim => simp [Py.Obj.isPrim] at hp
  | bad w => simp [Py.Obj.make, Py.Obj.isBad] at hb
  | _ =>
    simp only [Py.Obj.make] at hb ⊢
    split at hb
    · simp [Py.Obj.fail, Py.Obj.isBad] at hb
    · rename_i h
      exact ⟨h, rfl⟩

/-- An object made by `X()` and given other tags by `subtype`. -/
theorem make_recast (x o : Py.Obj) (f : TagSet → TagSet) (ho : x.make = o) (hob : o.isBad = false)
    (hb : (o.withAttrs (fun a => { a with tags := f a.tags })).make.isBad = false) :
    Recast o.ty (o.withAttrs (fun a => { a with tags := f a.tags })).make.ty f := by
  cases hp : x.isPrim with
  | true =>
    have hox : o = x := by
      cases hx : x.ty <;> simp [Py.Obj.isPrim, hx] at hp
      rename_i k a
      rw [← ho]
      exact make_prim x k a hx (by rw [ho]; exact hob)
    subst hox
    cases hx : o.ty <;> simp [Py.Obj.isPrim, hx] at hp
    rename_i k a
    rw [make_prim _ k { a with tags := f a.tags } (by simp [Py.Obj.withAttrs, hx, Ty.mapAttrs]) hb]
    exact ⟨fun a => { a with tags := f a.tags }, by rw [← hx]; rfl, rfl, fun _ => rfl⟩
  | false =>
    obtain ⟨h1, h2⟩ := make_cons x hp (by rw [ho]; exact hob)
    rw [ho] at h2
    subst h2
    obtain ⟨ty, size, val⟩ := x
    have hp' : (Py.Obj.withAttrs ⟨ty.mapAttrs (fun a => { a with spec := Py.moveSizeSpec size ty.attrs.spec }), size, none⟩
        (fun a => { a with tags := f a.tags })).isPrim = false := by
      cases ty <;> simp_all [Py.Obj.isPrim, Py.Obj.withAttrs, Ty.mapAttrs]
    obtain ⟨h3, h4⟩ := make_cons _ hp' hb
    rw [h4]
    refine ⟨fun a => { a with tags := f a.tags, spec := Py.moveSizeSpec size (Py.moveSizeSpec size ty.attrs.spec) }, ?_, ?_, ?_⟩
    · cases ty <;> rfl
    · cases ty <;> rfl
    · intro s
      have := move_again size ty.attrs.spec h1 s
      cases ty <;> first | exact this | (simp [Py.Obj.isBad, Ty.mapAttrs] at hob)

/-! ## C40 -/

theorem not_bad (o : Py.Obj) (h : o.isBad = false) : ∀ w, o.ty ≠ .bad w := by
  intro w hw
  simp [Py.Obj.isBad, hw] at h

/-- C40: `X().subtype(implicitTag=t)`, `X` with a tag: the identifier octets are replaced, primitive or constructed
as before, and nothing else changes. -/
theorem implicit_encode (x : Py.Obj) (t : Asn1.Tag) (hx : x.call.isBad = false) (hb : (x.call.implicitTag t).isBad = false)
    (ht : x.call.ty.tags ≠ []) (v : Val) (b : Bytes) (he : encode x.call.ty v = some b) :
    ∃ c k n i r, Der.Identifier c k n i ∧ b = i ++ r ∧
      ∀ i', Der.Identifier t.cls k t.num i' → encode (x.call.implicitTag t).ty v = some (i' ++ r) := by
  have hr := make_recast x x.call (fun ts => TagSet.tagImplicitly ts t) rfl hx hb
  obtain ⟨g1, g2⟩ := recast_inner hr v
  have g3 := recast_tags hr (not_bad _ hx)
  rw [encode_inner] at he
  obtain ⟨c, hc, hw⟩ := Option.bind_eq_some_iff.1 he
  obtain ⟨l, hl⟩ : ∃ l, x.call.ty.tags.getLast? = some l := by
    cases h : x.call.ty.tags.getLast? with
    | none => simp at h; exact absurd h ht
    | some l => exact ⟨l, rfl⟩
  have hsplit : x.call.ty.tags = x.call.ty.tags.dropLast ++ [l] := by
    obtain ⟨ys, hys⟩ := List.getLast?_eq_some_iff.1 hl
    rw [hys]; simp
  rw [hsplit, wrap_append] at hw
  obtain ⟨e, he1, he2⟩ := Option.bind_eq_some_iff.1 hw
  simp only [wrap, Option.bind_eq_some_iff, Option.some.injEq] at he2
  obtain ⟨b', he2, rfl⟩ := he2
  simp only [tlv, Option.map_eq_some_iff] at he2
  obtain ⟨len, hlen, rfl⟩ := he2
  refine ⟨l.cls, l.constructed || forced x.call.ty, l.num, _, _, (Der.identifier_iff _ _ _ _).2 rfl, rfl, ?_⟩
  intro i' hi'
  rw [(Der.identifier_iff _ _ _ _).1 hi']
  show encode (x.call.withAttrs (fun a => { a with tags := a.tags.tagImplicitly t })).make.ty v = _
  rw [encode_inner, g1, hc, g2, g3]
  simp only [Option.bind_some, TagSet.tagImplicitly, hl]
  rw [wrap_append, he1]
  simp [wrap, tlv, hlen]

/-- C40: `X().subtype(explicitTag=t)`: a constructed element with that tag around the encoding. -/
theorem explicit_encode (x : Py.Obj) (t : Asn1.Tag) (hx : x.call.isBad = false) (hb : (x.call.explicitTag t).isBad = false)
    (v : Val) (b' : Bytes) :
    encode (x.call.explicitTag t).ty v = some b' ↔ ∃ b, encode x.call.ty v = some b ∧ Der.Element t true b b' := by
  have hu : t.cls ≠ .universal := by
    intro h
    simp [Py.Obj.explicitTag, h, Py.Obj.fail, Py.Obj.isBad] at hb
  simp only [Py.Obj.explicitTag, hu, if_false] at hb ⊢
  have hr := make_recast x x.call (fun ts => TagSet.tagExplicitly ts t) rfl hx hb
  obtain ⟨g1, g2⟩ := recast_inner hr v
  have g3 := recast_tags hr (not_bad _ hx)
  rw [encode_inner, g1, g2, g3]
  simp only [encode_inner x.call.ty, TagSet.tagExplicitly]
  have hel : ∀ b, Der.Element t true b b' ↔ tlv ⟨t.cls, true, t.num⟩ (forced x.call.ty) b = some b' := fun b =>
    Der.element_iff ⟨t.cls, true, t.num⟩ true _ rfl b b'
  cases hc : inner x.call.ty v with
  | none => simp
  | some c =>
    simp only [Option.bind_some, wrap_append]
    cases hw : wrap (forced x.call.ty) x.call.ty.tags c with
    | none => simp
    | some b =>
      simp only [Option.bind_some, wrap, Option.bind_eq_some_iff, Option.some.injEq]
      constructor
      · rintro ⟨b2, h, rfl⟩
        exact ⟨b, rfl, (hel b).2 h⟩
      · rintro ⟨b2, rfl, h⟩
        exact ⟨b', (hel _).1 h, rfl⟩

/-- C40: an untagged CHOICE cannot be tagged implicitly (X.680 31.2.7 c); `implicitTag` then means the same as
`explicitTag`. -/
theorem implicit_choice (x : Py.Obj) (t : Asn1.Tag) (hx : x.call.isBad = false) (hb : (x.call.implicitTag t).isBad = false)
    (a : Attrs) (cs : Comps) (hty : x.call.ty = .choice a cs) (ht : a.tags = []) (v : Val) (b' : Bytes) :
    encode (x.call.implicitTag t).ty v = some b' ↔ ∃ b, encode x.call.ty v = some b ∧ Der.Element t true b b' := by
  have hr := make_recast x x.call (fun ts => TagSet.tagImplicitly ts t) rfl hx hb
  obtain ⟨g1, g2⟩ := recast_inner hr v
  have g3 := recast_tags hr (not_bad _ hx)
  show encode (x.call.withAttrs (fun a => { a with tags := a.tags.tagImplicitly t })).make.ty v = _ ↔ _
  rw [encode_inner, g1, g2, g3, encode_inner]
  have hf : forced x.call.ty = true := by rw [hty]; rfl
  have hts : x.call.ty.tags = [] := by rw [hty]; exact ht
  have hel : ∀ b, Der.Element t true b b' ↔ tlv t true b = some b' := fun b => Der.element_iff t true true (by simp) b b'
  rw [hf, hts]
  simp only [TagSet.tagImplicitly, List.getLast?_nil, hel]
  cases hc : inner x.call.ty v with
  | none => simp
  | some c => simp [wrap]

/-! ### Examples -/

/-- `[0] IMPLICIT` on a SEQUENCE, `[3] EXPLICIT` on one, and on a CHOICE. -/
example : encode (Rfc5280.Validity.call.implicitTag ⟨.context, true, 0⟩).ty
    (.record (.ofList [.alt 0 (.str "700101000000Z".toList), .alt 0 (.str "700101000000Z".toList)])) =
    some ([0xA0, 30] ++ ([23, 13] ++ "700101000000Z".toList.map (fun c => UInt8.ofNat c.toNat)) ++
      ([23, 13] ++ "700101000000Z".toList.map (fun c => UInt8.ofNat c.toNat))) := by decide +kernel

example : encode (Rfc5280.Extensions.call.explicitTag ⟨.context, true, 3⟩).ty
    (.list (.ofList [.record (.ofList [.oid [2, 5, 29, 15], .int 0, .octets [5, 0]])])) =
    some [0xA3, 13, 0x30, 11, 0x30, 9, 6, 3, 0x55, 0x1d, 15, 4, 2, 5, 0] := by decide +kernel

example : encode (Rfc5280.Time.call.implicitTag ⟨.context, false, 1⟩).ty (.alt 0 (.str "700101000000Z".toList)) =
    some ([0xA1, 15, 23, 13] ++ "700101000000Z".toList.map (fun c => UInt8.ofNat c.toNat)) := by decide +kernel

end Tagging
end Props
end Verif
