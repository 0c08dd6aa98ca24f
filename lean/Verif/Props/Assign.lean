import Verif.Asn1.AssignOwn
import Verif.Props.Compat
import Verif.Props.Constraint
import Verif.Props.InMemory

/-!
# C63: objects of other classes as components
-/

namespace Verif
namespace Props
namespace Assign

open Asn1 Successors

/-! ## What is accepted -/

theorem superTags_refl : ∀ ts : TagSet, superTags ts ts = true
  | [] => rfl
  | t :: ts => by simp [superTags, superTags_refl ts]

theorem superTags_prefix : ∀ {ts us : TagSet}, superTags ts us = true → ∃ ws rs, us = ws ++ rs ∧ ws.bare = ts.bare
  | [], us, _ => ⟨[], us, rfl, rfl⟩
  | _ :: _, [], h => by simp [superTags] at h
  | t :: ts, u :: us, h => by
    simp only [superTags, Bool.and_eq_true, beq_iff_eq] at h
    obtain ⟨ws, rs, h1, h2⟩ := superTags_prefix h.2
    refine ⟨u :: ws, rs, by rw [h1]; rfl, ?_⟩
    simp only [TagSet.bare, List.map_cons] at h2 ⊢
    rw [h2, h.1.1, h.1.2]

theorem superTags_length {ts us : TagSet} (h : superTags ts us = true) : ts.length ≤ us.length := by
  obtain ⟨ws, rs, h1, h2⟩ := superTags_prefix h
  have := congrArg List.length h2
  simp only [TagSet.bare, List.length_map] at this
  rw [h1, List.length_append]
  omega

mutual
theorem among_of_demanded {c : Asn1.Constraint} : ∀ {d : Asn1.Constraint}, c.demanded d = true → c.among d = true
  | .inter ds, h => by simp only [Constraint.demanded] at h; simp only [Constraint.among]; exact amongAny_of_demandedIn h
  | .union _, h => by simp [Constraint.demanded] at h
  | .size _ _, h => by simp [Constraint.demanded] at h
  | .range _ _, h => by simp [Constraint.demanded] at h
  | .single _, h => by simp [Constraint.demanded] at h
  | .alphabet _, h => by simp [Constraint.demanded] at h
  | .withComps _, h => by simp [Constraint.demanded] at h
  | .invalid, h => by simp [Constraint.demanded] at h
theorem amongAny_of_demandedIn {c : Asn1.Constraint} : ∀ {ds : Constraints}, c.demandedIn ds = true → c.amongAny ds = true
  | .nil, h => by simp [Constraint.demandedIn] at h
  | .cons d ds, h => by
    simp only [Constraint.demandedIn, Bool.or_eq_true, Bool.and_eq_true, decide_eq_true_eq] at h
    simp only [Constraint.amongAny, Bool.or_eq_true, Bool.and_eq_true, decide_eq_true_eq]
    rcases h with ⟨h1, h | h⟩ | h
    · exact .inl ⟨h1, .inl h⟩
    · exact .inl ⟨h1, .inr (among_of_demanded h)⟩
    · exact .inr (amongAny_of_demandedIn h)
end

theorem super_of_weaker {c d : Asn1.Constraint} (h : c.weaker d = true) : c.super d = true := by
  simp only [Constraint.weaker, Bool.or_eq_true] at h
  simp only [Constraint.super, Bool.or_eq_true]
  rcases h with h | h
  · exact .inl h
  · exact .inr (among_of_demanded h)

theorem narrower_super {t u : Ty} (h : t.narrower u = true) : t.super u = true := by
  have ht := Ty.narrower_tags h
  simp only [Ty.super, ht, superTags_refl, Bool.true_and]
  cases t <;> cases u <;> simp only [Ty.narrower, Bool.and_eq_true, Bool.false_eq_true] at h <;> simp only [Ty.attrs]
  · exact super_of_weaker h.2
  · simp [Constraint.super, h.1.2]
  · exact super_of_weaker h.1.2
  · simp [Constraint.super, h.1.2]

/-- C63: an object of a class that is like the type of a component is accepted there, whatever the component, and as an element
of a list of that type. -/
theorem narrower_accepted (f : Field) (t u : Ty) (h : t.narrower u = true) : f.accepts t u = true ∧ elementAccepts t u = true := by
  simp [Field.accepts, elementAccepts, narrower_super h]

/-- C63: an object of the class of the component is accepted. -/
theorem own_accepted (f : Field) (t : Ty) : f.accepts t t = true ∧ elementAccepts t t = true := by
  simp [Field.accepts, elementAccepts, Ty.super, Constraint.super, superTags_refl]

/-- The object in a component, if there is one. -/
def slot : MadeSlots → Nat → Option Made
  | .nil, _ => none
  | .gap _, 0 => none
  | .put o _, 0 => some o
  | .gap ss, i + 1 => slot ss i
  | .put _ ss, i + 1 => slot ss i

/-- The object in component `i`. -/
def component : Made → Nat → Option Made
  | .simple _ _ _, _ => none
  | .seq _ _ _ ss, i => slot ss i
  | .of _ _ _ os, i => os.toList[i]?
  | .choice _ _ j o, i => if i = j then some o else none

theorem slot_set (o : Made) : ∀ (ss : MadeSlots) (i j : Nat), slot (ss.set o i) j = if j = i then some o else slot ss j
  | .nil, 0, 0 => rfl
  | .nil, 0, j + 1 => by simp [MadeSlots.set, slot]
  | .nil, i + 1, 0 => by simp [MadeSlots.set, slot]
  | .nil, i + 1, j + 1 => by
    have := slot_set o .nil i j
    simp only [MadeSlots.set, slot, Nat.add_right_cancel_iff] at this ⊢
    exact this
  | .gap ss, 0, 0 => rfl
  | .gap ss, 0, j + 1 => by simp [MadeSlots.set, slot]
  | .gap ss, i + 1, 0 => by simp [MadeSlots.set, slot]
  | .gap ss, i + 1, j + 1 => by
    have := slot_set o ss i j
    simp only [MadeSlots.set, slot, Nat.add_right_cancel_iff] at this ⊢
    exact this
  | .put p ss, 0, 0 => rfl
  | .put p ss, 0, j + 1 => by simp [MadeSlots.set, slot]
  | .put p ss, i + 1, 0 => by simp [MadeSlots.set, slot]
  | .put p ss, i + 1, j + 1 => by
    have := slot_set o ss i j
    simp only [MadeSlots.set, slot, Nat.add_right_cancel_iff] at this ⊢
    exact this

theorem toList_snoc (o : Made) : ∀ os : MadeList, (os.snoc o).toList = os.toList ++ [o]
  | .nil => rfl
  | .cons p os => by simp [MadeList.snoc, MadeList.toList, toList_snoc o os]

/-- C63: what is assigned is what is there afterwards, of the class it had; the class of the whole is as before, and so are the
other components, except that a CHOICE has no others. -/
theorem assign_component (x y z : Made) (i : Nat) (h : x.assign i y = some z) :
    component z i = some y ∧ z.ty = x.ty ∧ ∀ j, j ≠ i → component z j = none ∨ component z j = component x j := by
  cases x with
  | simple k a v => simp [Made.assign] at h
  | seq s a cs ss =>
    simp only [Made.assign] at h
    cases hc : cs.get? i with
    | none => simp [hc] at h
    | some p =>
      simp only [hc] at h
      split at h
      · simp only [Option.some.injEq] at h
        subst h
        refine ⟨by simp [component, slot_set], rfl, fun j hj => .inr ?_⟩
        simp [component, slot_set, hj]
      · simp at h
  | of s a t os =>
    simp only [Made.assign] at h
    split at h
    · rename_i hi
      simp only [Bool.and_eq_true, decide_eq_true_eq] at hi
      simp only [Option.some.injEq] at h
      subst h
      refine ⟨by simp [component, toList_snoc, hi.1], rfl, fun j hj => .inr ?_⟩
      simp only [component, toList_snoc]
      rcases Nat.lt_or_ge j os.toList.length with hlt | hge
      · rw [List.getElem?_append_left hlt]
      · rw [List.getElem?_eq_none (by simp; omega), List.getElem?_eq_none hge]
    · simp at h
  | choice a cs k o =>
    simp only [Made.assign] at h
    cases hc : cs.get? i with
    | none => simp [hc] at h
    | some p =>
      simp only [hc] at h
      split at h
      · simp only [Option.some.injEq] at h
        subst h
        exact ⟨by simp [component], rfl, fun j hj => .inl (by simp [component, hj])⟩
      · simp at h

/-! ## What the object stands for -/

/-- C63: an object of a class that is like the type stands for its value. -/
theorem class_stands (ine : Bool) (t u : Ty) (h : t.narrower u = true) (v : Val) (hv : u.valid v = true) :
    Stands ine t (Made.ofVal u v) v := stands_narrower (Made.ofVal_stands ine u v hv) t h

/-- C63: what stands for a value is encoded as the value is. -/
theorem stands_encoded (ine : Bool) (t : Ty) (o : Made) (v : Val) (h : Stands ine t o v) (b : Bytes) (he : o.enc ine = some b) :
    enc ine t v = some b := stands_enc h b he

/-- C63: an object of the class itself, holding a legal value, is encoded as the value is, can be assembled of legal parts, and
holds the value. -/
theorem own_encoded (c : String × Ty) (hc : c ∈ Package.types) (hn : c.1 ∉ InMemory.conditional) (v : Val) (hv : c.2.valid v = true) :
    (Made.ofVal c.2 v).enc false = encode c.2 v ∧ (Made.ofVal c.2 v).legal = true ∧ (Made.ofVal c.2 v).ty = c.2 ∧
      (Made.ofVal c.2 v).value = v :=
  ⟨Made.ofVal_enc _ _ _ (InMemory.neutral_of_mem hc hn).1 hv, Made.ofVal_legal _ _ hv, Made.ofVal_ty hv, Made.ofVal_value _ _ hv⟩

/-- C63: if an object assembled of parts of whatever classes stands for a value of a class of the package, and `encode` does not
raise, `decode` with the class reads the octets, and nothing more, as a value that says the same. -/
theorem assigned_decodes (c : String × Ty) (hc : c ∈ Package.types) (hd : c.1 ∉ Package.defective) (o : Made) (v : Val)
    (h : Stands false c.2 o v) (hl : o.legal = true) (ha : c.2.faithful v = true) (b rest : Bytes) (he : o.enc false = some b) :
    ∃ w, decode c.2 (b ++ rest) = some (w, rest) ∧ c.2.same false v w := by
  obtain ⟨x, w, h1, h2, h3, _⟩ := Codec.encode_isTLV c.2 (Package.wf_of_mem hc hd) v b (stands_valid h b he hl ha) (stands_enc h b he)
  exact ⟨w, by simp only [decode, h1.2 rest, h2], h3⟩

/-- C63: the same for an object that stands for a value of an older type, all of whose parts the newer type reads. -/
theorem assigned_decodes_newer (u t : Ty) (hs : u.sub t = true) (hw : t.wf = true) (o : Made) (v : Val) (h : Stands false t o v)
    (hl : o.legal = true) (ha : t.faithful v = true) (b rest : Bytes) (he : o.enc false = some b) :
    ∃ v' w, t.same false v v' ∧ decode u (b ++ rest) = some (w, rest) ∧ u.rel t v' w := by
  obtain ⟨x, v', h1, h2, h3, _⟩ := Codec.encode_isTLV t hw v b (stands_valid h b he hl ha) (stands_enc h b he)
  obtain ⟨w, h4, h5⟩ := sub_decode u t (b ++ rest) rest v' (by simp only [decode, h1.2 rest, h2]) hs
  exact ⟨v', w, h3, h4, h5⟩

/-! ## Assembling -/

/-- `x[i] = y` for each of the pairs, one after another. -/
def assemble : Made → List (Nat × Made) → Option Made
  | x, [] => some x
  | x, (i, y) :: rest => (x.assign i y).bind (fun z => assemble z rest)

/-- The last object assigned to component `i`. -/
def lastAt : List (Nat × Made) → Nat → Option Made
  | [], _ => none
  | (j, y) :: rest, i => match lastAt rest i with
    | some z => some z
    | none => if i = j then some y else none

/-- What is in the component stands for `v`: nothing, if it is OPTIONAL or has a DEFAULT; an object that does; in an open type
field, an object that is encoded to the octets `v`. -/
def Holds (isSet : Bool) (f : Field) (t : Ty) : Option Made → Val → Prop
  | none, v => f.mode.missing = some v
  | some o, v =>
    ((f.openType = none ∨ sameType t o.ty = true) ∧ v ≠ .absent ∧ (∀ d, f.mode = .dflt d → o.value = v) ∧
      (isSet = true → o.key = setKey t v) ∧ Stands f.mode.isOpt t o v) ∨
    (isSet = false ∧ f.openType ≠ none ∧ sameType t o.ty = false ∧ (∃ a, t = .prim .any a ∧ a.spec.truthy = false) ∧
      (∀ d, f.mode ≠ .dflt d) ∧ ∃ b, o.enc f.mode.isOpt = some b ∧ v = .octets b)

def fits : Comps → MadeSlots → Bool
  | _, .nil => true
  | .cons _ _ cs, .gap ss => fits cs ss
  | .cons _ _ cs, .put _ ss => fits cs ss
  | .nil, _ => false

theorem fits_set (o : Made) : ∀ (cs : Comps) (ss : MadeSlots) (i : Nat), fits cs ss = true → (cs.get? i).isSome = true → fits cs (ss.set o i) = true
  | .nil, _, _, _, h => by simp [Comps.get?] at h
  | .cons _ _ cs, .nil, 0, _, _ => by simp [MadeSlots.set, fits]
  | .cons _ _ cs, .nil, i + 1, _, h => by
    simp only [MadeSlots.set, fits]
    exact fits_set o cs .nil i (by cases cs <;> rfl) (by simpa only [Comps.get?] using h)
  | .cons _ _ cs, .gap ss, 0, h, _ => by simpa only [MadeSlots.set, fits] using h
  | .cons _ _ cs, .gap ss, i + 1, h, hi => by
    simp only [MadeSlots.set, fits] at h ⊢
    exact fits_set o cs ss i h (by simpa only [Comps.get?] using hi)
  | .cons _ _ cs, .put _ ss, 0, h, _ => by simpa only [MadeSlots.set, fits] using h
  | .cons _ _ cs, .put _ ss, i + 1, h, hi => by
    simp only [MadeSlots.set, fits] at h ⊢
    exact fits_set o cs ss i h (by simpa only [Comps.get?] using hi)

theorem legal_set {o : Made} (ho : o.legal = true) : ∀ (ss : MadeSlots) (i : Nat), ss.legal = true → (ss.set o i).legal = true
  | .nil, 0, _ => by simp [MadeSlots.set, MadeSlots.legal, ho]
  | .nil, i + 1, h => by simp only [MadeSlots.set, MadeSlots.legal]; exact legal_set ho .nil i rfl
  | .gap ss, 0, h => by simp only [MadeSlots.legal] at h; simp [MadeSlots.set, MadeSlots.legal, ho, h]
  | .gap ss, i + 1, h => by simp only [MadeSlots.set, MadeSlots.legal] at h ⊢; exact legal_set ho ss i h
  | .put p ss, 0, h => by simp only [MadeSlots.legal, Bool.and_eq_true] at h; simp [MadeSlots.set, MadeSlots.legal, ho, h.2]
  | .put p ss, i + 1, h => by
    simp only [MadeSlots.set, MadeSlots.legal, Bool.and_eq_true] at h ⊢
    exact ⟨h.1, legal_set ho ss i h.2⟩

theorem assemble_slots (s : Bool) (a : Attrs) (cs : Comps) : ∀ (steps : List (Nat × Made)) (ss : MadeSlots) (z : Made),
    fits cs ss = true → ss.legal = true → (∀ p ∈ steps, p.2.legal = true) → assemble (.seq s a cs ss) steps = some z →
    ∃ rs, z = .seq s a cs rs ∧ fits cs rs = true ∧ rs.legal = true ∧ ∀ i, slot rs i = match lastAt steps i with
      | some o => some o
      | none => slot ss i
  | [], ss, z, hf, hl, _, h => by
    simp only [assemble, Option.some.injEq] at h
    exact ⟨ss, h.symm, hf, hl, fun i => rfl⟩
  | (j, y) :: rest, ss, z, hf, hl, hy, h => by
    simp only [assemble, Made.assign] at h
    cases hc : cs.get? j with
    | none => simp [hc] at h
    | some p =>
      simp only [hc] at h
      split at h
      · simp only [Option.bind_some] at h
        obtain ⟨rs, h1, h2, h3, h4⟩ := assemble_slots s a cs rest (ss.set y j) z (fits_set y cs ss j hf (by simp [hc]))
          (legal_set (hy (j, y) (by simp)) ss j hl) (fun p hp => hy p (by simp [hp])) h
        refine ⟨rs, h1, h2, h3, fun i => ?_⟩
        rw [h4 i]
        simp only [lastAt]
        cases lastAt rest i with
        | some o => rfl
        | none =>
          simp only [slot_set]
          split <;> rfl
      · simp at h

theorem slots_stand (isSet : Bool) : ∀ (cs : Comps) (ss : MadeSlots) (vs : Vals), fits cs ss = true → vs.length = cs.length →
    (∀ i f t v, cs.get? i = some (f, t) → vs.get? i = some v → Holds isSet f t (slot ss i) v) → StandsSlots isSet cs cs ss vs
  | .nil, ss, vs, hf, hl, _ => by
    cases ss <;> simp only [fits, Bool.false_eq_true] at hf
    cases vs <;> simp only [Vals.length, Comps.length, Nat.add_eq_zero_iff, Nat.one_ne_zero, and_false] at hl
    exact .nil isSet
  | .cons f t cs, ss, vs, hf, hl, hh => by
    cases vs with
    | nil => simp [Vals.length, Comps.length] at hl
    | cons v vs =>
      simp only [Vals.length, Comps.length, Nat.add_right_cancel_iff] at hl
      have h0 := hh 0 f t v rfl rfl
      cases ss with
      | nil =>
        refine .rest isSet f f t t cs cs v vs rfl h0 (slots_stand isSet cs .nil vs (by cases cs <;> rfl) hl ?_)
        intro i g u w hi hw
        have := hh (i + 1) g u w (by simpa only [Comps.get?] using hi) (by simpa only [Vals.get?] using hw)
        exact this
      | gap ss =>
        refine .gap isSet f f t t cs cs ss v vs rfl h0 (slots_stand isSet cs ss vs (by simpa only [fits] using hf) hl ?_)
        intro i g u w hi hw
        have := hh (i + 1) g u w (by simpa only [Comps.get?] using hi) (by simpa only [Vals.get?] using hw)
        exact this
      | put o ss =>
        have hrest : StandsSlots isSet cs cs ss vs := by
          refine slots_stand isSet cs ss vs (by simpa only [fits] using hf) hl ?_
          intro i g u w hi hw
          have := hh (i + 1) g u w (by simpa only [Comps.get?] using hi) (by simpa only [Vals.get?] using hw)
          exact this
        rcases h0 with ⟨h1, h2, h3, h4, h5⟩ | ⟨rfl, h1, h2, ⟨a, rfl, h3⟩, h4, b, h5, rfl⟩
        · exact .put isSet f f t t cs cs o ss v vs rfl h1 h2 h3 h4 h5 hrest
        · exact .opened f f a a cs cs o ss b vs rfl h1 h2 rfl h3 h4 h5 hrest

/-- C63: whatever objects, of whatever classes and in whatever order, are assigned to the components of a new object of a SEQUENCE
or SET class of the package: if those assigned last stand for the values `vs`, and `encode` does not raise, `decode` with the class
reads the octets as these values. -/
theorem assembled_decodes (c : String × Ty) (hc : c ∈ Package.types) (hd : c.1 ∉ Package.defective) (s : Bool) (a : Attrs) (cs : Comps)
    (he : c.2 = .seq s a cs) (ha : a.spec.truthy = false) (steps : List (Nat × Made)) (z : Made)
    (hz : assemble (.seq s a cs .nil) steps = some z) (hl : ∀ p ∈ steps, p.2.legal = true) (vs : Vals) (hn : vs.length = cs.length)
    (hh : ∀ i f t v, cs.get? i = some (f, t) → vs.get? i = some v → Holds s f t (lastAt steps i) v)
    (hany : c.2.faithful (.record vs) = true) (b rest : Bytes) (hb : z.enc false = some b) :
    ∃ w, decode c.2 (b ++ rest) = some (w, rest) ∧ c.2.same false (.record vs) w := by
  obtain ⟨rs, rfl, h1, h2, h3⟩ := assemble_slots s a cs steps .nil z (by cases cs <;> rfl) rfl hl hz
  refine assigned_decodes c hc hd (.seq s a cs rs) (.record vs) ?_ h2 hany b rest hb
  rw [he]
  refine .seq false s a a cs cs rs vs rfl (fun _ => ok_falsy ha _) (slots_stand s cs rs vs h1 hn ?_)
  intro i f t v hi hv
  rw [h3 i]
  have := hh i f t v hi hv
  cases hx : lastAt steps i with
  | none => rw [hx] at this; exact this
  | some o => rw [hx] at this; exact this

/-! ## Classes made by `subtype` -/

mutual
theorem among_size {c : Asn1.Constraint} : ∀ {d : Asn1.Constraint}, c.among d = true → sizeOf c < sizeOf d
  | .inter ds, h => by
    simp only [Constraint.among] at h
    have := amongAny_size h
    simp only [Constraint.inter.sizeOf_spec]
    omega
  | .union ds, h => by
    simp only [Constraint.among] at h
    have := amongAny_size h
    simp only [Constraint.union.sizeOf_spec]
    omega
  | .size _ _, h => by simp [Constraint.among] at h
  | .range _ _, h => by simp [Constraint.among] at h
  | .single _, h => by simp [Constraint.among] at h
  | .alphabet _, h => by simp [Constraint.among] at h
  | .withComps _, h => by simp [Constraint.among] at h
  | .invalid, h => by simp [Constraint.among] at h
theorem amongAny_size {c : Asn1.Constraint} : ∀ {ds : Constraints}, c.amongAny ds = true → sizeOf c < sizeOf ds
  | .nil, h => by simp [Constraint.amongAny] at h
  | .cons d ds, h => by
    simp only [Constraint.amongAny, Bool.or_eq_true, Bool.and_eq_true, decide_eq_true_eq] at h
    simp only [Constraints.cons.sizeOf_spec]
    rcases h with ⟨_, rfl | h⟩ | h
    · omega
    · have := among_size h
      omega
    · have := amongAny_size h
      omega
end

theorem amongAny_append {c : Asn1.Constraint} (d : Asn1.Constraint) : ∀ ds : Constraints,
    c.amongAny (Py.appendC ds d) = (c.amongAny ds || (d.truthy && (decide (c = d) || c.among d)))
  | .nil => by simp [Py.appendC, Constraint.amongAny]
  | .cons e ds => by simp only [Py.appendC, Constraint.amongAny, amongAny_append d ds, Bool.or_assoc]

theorem append_ne (d : Asn1.Constraint) : ∀ ds : Constraints, ds ≠ Py.appendC ds d
  | .nil => by simp [Py.appendC]
  | .cons e ds => by simp [Py.appendC, append_ne d ds]

theorem sub_attrs (x : Py.Obj) (c : Asn1.Constraint) (hs : x.size.truthy = false) (hb : (x.addSubtypeSpec c).isBad = false) :
    (x.addSubtypeSpec c).ty = Constraint.withSpec (x.ty.attrs.spec.add c) x.ty := by
  have e : Py.moveSizeSpec x.size (x.ty.attrs.spec.add c) = x.ty.attrs.spec.add c := by
    simp [Py.moveSizeSpec, hs]
  rw [Constraint.subtype_ty x c hb, e, ite_self]

theorem isBad_ty {x : Py.Obj} (h : x.isBad = false) (w : String) : x.ty ≠ .bad w := by
  intro hc
  simp [Py.Obj.isBad, hc] at h

theorem withSpec_bad {c : Asn1.Constraint} {t : Ty} {w : String} (h : t = .bad w) : Constraint.withSpec c t = .bad w := by
  subst h
  rfl

theorem withSpec_attrs {c : Asn1.Constraint} {t : Ty} (h : ∀ w, t ≠ .bad w) :
    (Constraint.withSpec c t).tags = t.tags ∧ (Constraint.withSpec c t).attrs.spec = c := by
  cases t with
  | bad w => exact absurd rfl (h w)
  | _ => exact ⟨rfl, rfl⟩

/-- C63: an object of a class made from an unconstrained one by `x.subtype(subtypeSpec=c)` is accepted where the latter is. -/
theorem subtype_accepted (x : Py.Obj) (c : Asn1.Constraint) (hx : x.ty.attrs.spec.truthy = false) (hs : x.size.truthy = false)
    (hb : (x.addSubtypeSpec c).isBad = false) (f : Field) : f.accepts x.ty (x.addSubtypeSpec c).ty = true := by
  rw [sub_attrs x c hs hb]
  by_cases hw : ∃ w, x.ty = .bad w
  · obtain ⟨w, hw⟩ := hw
    rw [withSpec_bad hw, hw]
    exact (own_accepted f _).1
  · obtain ⟨h1, h2⟩ := withSpec_attrs (c := x.ty.attrs.spec.add c) (t := x.ty) (fun w hc => hw ⟨w, hc⟩)
    simp [Field.accepts, Ty.super, h1, h2, superTags_refl, Constraint.super, hx]

/-- C63: but if the class has constraints already, objects of the narrower class are refused. -/
theorem subtype_refused (x : Py.Obj) (c : Asn1.Constraint) (cs : Constraints) (d : Asn1.Constraint)
    (hx : x.ty.attrs.spec = .inter (.cons d cs)) (hs : x.size.truthy = false) (hb : (x.addSubtypeSpec c).isBad = false)
    (hc : Constraint.super (.inter (.cons d cs)) c = false) (f : Field) (hf : f.openType = none) :
    f.accepts x.ty (x.addSubtypeSpec c).ty = false := by
  have hnb : ∀ w, x.ty ≠ .bad w := fun w hw => isBad_ty hb w (by rw [sub_attrs x c hs hb]; exact withSpec_bad hw)
  rw [sub_attrs x c hs hb]
  obtain ⟨h1, h2⟩ := withSpec_attrs (c := x.ty.attrs.spec.add c) (t := x.ty) hnb
  simp only [Field.accepts, hf, Option.isSome_none, Bool.or_false, Ty.super, Bool.and_eq_false_iff]
  right
  rw [h2, hx]
  simp only [Constraint.super, Bool.or_eq_false_iff, Bool.not_eq_false', decide_eq_false_iff_not] at hc ⊢
  have hself : (Asn1.Constraint.inter (.cons d cs)).amongAny (.cons d cs) = false := by
    cases hh : (Asn1.Constraint.inter (.cons d cs)).amongAny (.cons d cs) with
    | false => rfl
    | true =>
      have := amongAny_size hh
      simp only [Constraint.inter.sizeOf_spec] at this
      omega
  refine ⟨⟨rfl, ?_⟩, ?_⟩
  · cases c <;> simp only [Asn1.Constraint.add, Asn1.Constraint.inter.injEq, reduceCtorEq, not_false_iff] <;> exact append_ne _ _
  · cases hcc : c with
    | invalid => simp [Asn1.Constraint.add, Constraint.among]
    | _ =>
      rw [← hcc]
      have : (Asn1.Constraint.inter (.cons d cs)).add c = .inter (Py.appendC (.cons d cs) c) := by rw [hcc]; rfl
      rw [this, Constraint.among, amongAny_append, hself]
      simp [hc.1.2, hc.2]

/-- C63: `x` is refused by a component of type `x.subtype(explicitTag=t)`. -/
theorem explicit_refused (x : Py.Obj) (t : Asn1.Tag) (hx : x.call.isBad = false) (hb : (x.call.explicitTag t).isBad = false)
    (f : Field) (hf : f.openType = none) : f.accepts (x.call.explicitTag t).ty x.call.ty = false := by
  unfold Py.Obj.explicitTag at hb ⊢
  split at hb
  · simp [Py.Obj.isBad, Py.Obj.fail] at hb
  rename_i hu
  rw [if_neg hu]
  have hr := Tagging.make_recast x x.call (fun ts => TagSet.tagExplicitly ts t) rfl hx hb
  have ht := Tagging.recast_tags hr (isBad_ty hx)
  simp only [Field.accepts, hf, Option.isSome_none, Bool.or_false, Ty.super, Bool.and_eq_false_iff]
  left
  rw [ht]
  cases h : superTags _ _ with
  | false => rfl
  | true =>
    have := superTags_length h
    simp only [TagSet.tagExplicitly, List.length_append, List.length_cons, List.length_nil] at this
    omega

/-- C63: `x` is refused by a component of type `x.subtype(implicitTag=t)`, unless `t` is the tag it has. -/
theorem implicit_refused (x : Py.Obj) (t : Asn1.Tag) (hx : x.call.isBad = false) (hb : (x.call.implicitTag t).isBad = false)
    (hl : ∀ l, x.call.ty.tags.getLast? = some l → ¬(l.cls = t.cls ∧ l.num = t.num)) (f : Field) (hf : f.openType = none) :
    f.accepts (x.call.implicitTag t).ty x.call.ty = false := by
  unfold Py.Obj.implicitTag at hb ⊢
  have hr := Tagging.make_recast x x.call (fun ts => TagSet.tagImplicitly ts t) rfl hx hb
  have ht := Tagging.recast_tags hr (isBad_ty hx)
  simp only [Field.accepts, hf, Option.isSome_none, Bool.or_false, Ty.super, Bool.and_eq_false_iff]
  left
  rw [ht]
  cases h : superTags _ _ with
  | false => rfl
  | true =>
    exfalso
    generalize x.call.ty.tags = ts at h hl
    simp only [TagSet.tagImplicitly] at h
    cases hg : ts.getLast? with
    | none =>
      simp only [hg] at h
      have := superTags_length h
      simp only [List.getLast?_eq_none_iff] at hg
      subst hg
      simp at this
    | some l =>
      simp only [hg] at h
      obtain ⟨ws, rs, h1, h2⟩ := superTags_prefix h
      obtain ⟨ys, hy⟩ := List.getLast?_eq_some_iff.1 hg
      have hlen := congrArg List.length h2
      simp only [TagSet.bare, List.length_map, List.length_append, List.length_cons, List.length_nil] at hlen
      have hd : ts.dropLast = ys := by rw [hy]; simp
      rw [hd] at h2 hlen
      rw [hy] at h1
      have hrs : rs = [] := by
        have := congrArg List.length h1
        simp only [List.length_append, List.length_cons, List.length_nil] at this
        exact List.length_eq_zero_iff.1 (by omega)
      subst hrs
      rw [List.append_nil] at h1
      subst h1
      simp only [TagSet.bare, List.map_append, List.map_cons, List.map_nil] at h2
      have := List.append_inj_right' h2 rfl
      simp only [List.cons.injEq, Prod.mk.injEq, and_true] at this
      exact hl l hg this

/-! ## Objects of superseded classes -/

/-- The classes of `compatible` whose objects the component takes all the same not. -/
def refused : List (String × String) :=
  [("rfc2459.CRLNumber", "rfc3280.CRLNumber"), ("rfc2459.BaseCRLNumber", "rfc3280.BaseCRLNumber"),
   ("rfc2459.SkipCerts", "rfc3280.SkipCerts"), ("rfc2459.RelativeDistinguishedName", "rfc3280.RelativeDistinguishedName"),
   ("rfc3280.EmailAddress", "rfc5280.EmailAddress"), ("rfc2459.CRLNumber", "rfc5280.CRLNumber"),
   ("rfc2459.BaseCRLNumber", "rfc5280.BaseCRLNumber"), ("rfc2459.SkipCerts", "rfc5280.SkipCerts"),
   ("rfc2459.RelativeDistinguishedName", "rfc5280.RelativeDistinguishedName"),
   ("rfc2315.RecipientInfos", "rfc3852.RecipientInfos"), ("rfc2315.RecipientInfos", "rfc5652.RecipientInfos")]

set_option maxRecDepth 100000 in
theorem accepted_table : (compatible.filter (fun r => !r.newTy.super r.oldTy)).map (fun r => (r.oldName, r.newName)) = refused := by
  decide +kernel

set_option maxRecDepth 100000 in
theorem neutral_table : compatible.all (fun r => r.oldTy.neutral) = true := by decide +kernel

/-- C63: an object of a class of `compatible` is accepted wherever one of the class that replaces it is expected, except for the
eleven of `refused`; it is encoded as its own class says, and the octets are read by the newer class. -/
theorem successor_component (r : Row) (hr : r ∈ compatible) (hn : (r.oldName, r.newName) ∉ refused)
    (hd : r.oldName ∉ Package.defective) (f : Field) (v : Val) (hv : r.oldTy.valid v = true) (hb : r.oldTy.weight v < Codec.maxOctets) :
    f.accepts r.newTy (Made.ofVal r.oldTy v).ty = true ∧ elementAccepts r.newTy (Made.ofVal r.oldTy v).ty = true ∧
      ∃ b v' w, (Made.ofVal r.oldTy v).enc false = some b ∧ r.oldTy.same false v v' ∧ decode r.newTy b = some (w, []) ∧
        r.newTy.rel r.oldTy v' w := by
  have hs : r.newTy.super r.oldTy = true := by
    cases h : r.newTy.super r.oldTy with
    | true => rfl
    | false =>
      refine absurd ?_ hn
      rw [← accepted_table]
      exact List.mem_map.2 ⟨r, List.mem_filter.2 ⟨hr, by simp [h]⟩, rfl⟩
  obtain ⟨b, v', w, h1, h2⟩ := Compat.successor_reads_encoding r hr hd v hv hb
  rw [Made.ofVal_ty hv]
  refine ⟨by simp [Field.accepts, hs], by simp [elementAccepts, hs], b, v', w, ?_, h2⟩
  rw [Made.ofVal_enc _ _ _ (List.all_eq_true.1 neutral_table r hr) hv]
  exact h1

/-- C63: objects of the classes of `refused` are refused. -/
theorem successor_refused (r : Row) (hr : r ∈ compatible) (hn : (r.oldName, r.newName) ∈ refused) (f : Field) (hf : f.openType = none) :
    f.accepts r.newTy r.oldTy = false := by
  have : compatible.all (fun r => !refused.contains (r.oldName, r.newName) || !r.newTy.super r.oldTy) = true := by
    decide +kernel
  have h := List.all_eq_true.1 this r hr
  simp only [Bool.or_eq_true, Bool.not_eq_true', List.contains_eq_mem, decide_eq_false_iff_not] at h
  rcases h with h | h
  · exact absurd hn h
  · simp [Field.accepts, h, hf]

/-- The predecessor's value in the octets, assigned to a component of the newer class and encoded. -/
def misread (p : Row × List UInt8) : Bool :=
  match decode p.1.oldTy p.2 with
  | none => false
  | some (v, _) => p.1.oldTy.valid v && p.1.newTy.super p.1.oldTy && p.1.oldTy.neutral && (match encode p.1.oldTy v with
    | none => false
    | some b => (decode p.1.newTy b).isNone)

set_option maxRecDepth 100000 in
theorem misread_table : (broken.filter (fun p => !misread p)).map (fun p => (p.1.oldName, p.1.newName)) =
    [("rfc1157.VarBindList", "rfc1905.VarBindList")] := by decide +kernel

/-- C63: for every class of `broken` but one there is an object that is accepted where one of the newer class is expected, is
encoded without complaint, and whose octets the newer class does not read. -/
theorem successor_misread (p : Row × List UInt8) (hp : p ∈ broken)
    (hn : (p.1.oldName, p.1.newName) ≠ ("rfc1157.VarBindList", "rfc1905.VarBindList")) (f : Field) :
    ∃ v b, p.1.oldTy.valid v = true ∧ f.accepts p.1.newTy (Made.ofVal p.1.oldTy v).ty = true ∧
      (Made.ofVal p.1.oldTy v).enc false = some b ∧ decode p.1.newTy b = none := by
  have h : misread p = true := by
    cases h : misread p with
    | true => rfl
    | false =>
      refine absurd ?_ hn
      have : (p.1.oldName, p.1.newName) ∈ [("rfc1157.VarBindList", "rfc1905.VarBindList")] := by
        rw [← misread_table]
        exact List.mem_map.2 ⟨p, List.mem_filter.2 ⟨hp, by simp [h]⟩, rfl⟩
      simpa using this
  unfold misread at h
  cases hd : decode p.1.oldTy p.2 with
  | none => simp [hd] at h
  | some q =>
    obtain ⟨v, r⟩ := q
    simp only [hd, Bool.and_eq_true] at h
    cases he : encode p.1.oldTy v with
    | none => simp [he] at h
    | some b =>
      simp only [he, Option.isNone_iff_eq_none] at h
      obtain ⟨⟨⟨h1, h2⟩, h3⟩, h4⟩ := h
      exact ⟨v, b, h1, by simp [Field.accepts, Made.ofVal_ty h1, h2], by rw [Made.ofVal_enc _ _ _ h3 h1]; exact he, h4⟩

/-! ## What is accepted too -/

/-- C63: only the tags and the constraint count: an object of any class with the tags of the type, or with further tags around
them, is accepted by a component of a type that has no constraint. -/
theorem accepts_by_tags (f : Field) (t u : Ty) (hs : t.attrs.spec.truthy = false) (rs : TagSet) (ht : u.tags = t.tags ++ rs) :
    f.accepts t u = true := by
  have : ∀ ts rs : TagSet, superTags ts (ts ++ rs) = true := by
    intro ts rs
    induction ts with
    | nil => rfl
    | cons t ts ih => simp [superTags, ih]
  simp [Field.accepts, Ty.super, Constraint.super, hs, ht, this]

/-- C63: a component whose type is a CHOICE or an ANY without a tag takes objects of every class. -/
theorem accepts_all (f : Field) (t u : Ty) (hs : t.attrs.spec.truthy = false) (ht : t.tags = []) : f.accepts t u = true :=
  accepts_by_tags f t u hs u.tags (by rw [ht]; rfl)

/-- The tags of `t` are the first ones of `u`'s, and the constraint of the former, if there is any, is that of the latter or part
of it. -/
def Extends (t u : Ty) : Prop :=
  (∃ ws rs, u.tags = ws ++ rs ∧ ws.bare = t.tags.bare) ∧
    (t.attrs.spec.truthy = false ∨ u.attrs.spec = t.attrs.spec ∨ t.attrs.spec.among u.attrs.spec = true)

theorem super_iff (t u : Ty) : t.super u = true ↔ Extends t u := by
  have hpre : (∃ ws rs, u.tags = ws ++ rs ∧ ws.bare = t.tags.bare) ↔ superTags t.tags u.tags = true := by
    refine ⟨?_, superTags_prefix⟩
    rintro ⟨ws, rs, h1, h2⟩
    rw [h1]
    generalize t.tags = ts at h2
    clear h1
    induction ts generalizing ws with
    | nil => rfl
    | cons t ts ih =>
      cases ws with
      | nil => simp [TagSet.bare] at h2
      | cons w ws =>
        simp only [TagSet.bare, List.map_cons, List.cons.injEq, Prod.mk.injEq] at h2
        simp only [List.cons_append, superTags, Bool.and_eq_true, beq_iff_eq]
        exact ⟨⟨h2.1.1.symm, h2.1.2.symm⟩, ih ws h2.2⟩
  rw [Extends, hpre]
  simp only [Ty.super, Bool.and_eq_true, Constraint.super, Bool.or_eq_true,
    Bool.not_eq_true', decide_eq_true_eq, or_assoc]
  rw [eq_comm (a := t.attrs.spec)]

/-- C63: assigning a component of a SEQUENCE or SET does not raise exactly if there is such a component, and it is an open type or
the class of the object extends its type. -/
theorem assign_iff (s : Bool) (a : Attrs) (cs : Comps) (ss : MadeSlots) (i : Nat) (y : Made) :
    ((Made.seq s a cs ss).assign i y ≠ none) ↔ ∃ f t, cs.get? i = some (f, t) ∧ (f.openType ≠ none ∨ Extends t y.ty) := by
  simp only [Made.assign]
  cases cs.get? i with
  | none => simp
  | some p =>
    obtain ⟨f, t⟩ := p
    have : f.accepts t y.ty = true ↔ (f.openType ≠ none ∨ Extends t y.ty) := by
      rw [← super_iff]
      simp only [Field.accepts, Bool.or_eq_true, Option.isSome_iff_ne_none]
      exact Or.comm
    by_cases hc : f.accepts t y.ty = true
    · simp only [hc, if_true]
      exact ⟨fun _ => ⟨f, t, rfl, this.1 hc⟩, fun _ => by simp⟩
    · simp only [hc]
      refine ⟨fun h => absurd rfl h, ?_⟩
      rintro ⟨f', t', h1, h2⟩
      cases h1
      exact absurd (this.2 h2) hc

/-- C63: so for an alternative of a CHOICE, whichever one it holds. -/
theorem choose_iff (a : Attrs) (cs : Comps) (j : Nat) (x : Made) (i : Nat) (y : Made) :
    ((Made.choice a cs j x).assign i y ≠ none) ↔ ∃ f t, cs.get? i = some (f, t) ∧ (f.openType ≠ none ∨ Extends t y.ty) := by
  simp only [Made.assign]
  cases cs.get? i with
  | none => simp
  | some p =>
    obtain ⟨f, t⟩ := p
    have : f.accepts t y.ty = true ↔ (f.openType ≠ none ∨ Extends t y.ty) := by
      rw [← super_iff]
      simp only [Field.accepts, Bool.or_eq_true, Option.isSome_iff_ne_none]
      exact Or.comm
    by_cases hc : f.accepts t y.ty = true
    · simp only [hc, if_true]
      exact ⟨fun _ => ⟨f, t, rfl, this.1 hc⟩, fun _ => by simp⟩
    · simp only [hc]
      refine ⟨fun h => absurd rfl h, ?_⟩
      rintro ⟨f', t', h1, h2⟩
      cases h1
      exact absurd (this.2 h2) hc

/-- C63: appending to a list does not raise exactly if the elements are of type ANY or the class of the object extends their
type. -/
theorem append_iff (s : Bool) (a : Attrs) (t : Ty) (os : MadeList) (y : Made) :
    ((Made.of s a t os).assign os.toList.length y ≠ none) ↔ ((∃ b, t = .prim .any b) ∨ Extends t y.ty) := by
  have h : t.anyLike = true ↔ ∃ b, t = .prim .any b := by
    cases t with
    | prim k b => cases k <;> simp [Ty.anyLike]
    | _ => simp [Ty.anyLike]
  rw [← super_iff, ← h]
  simp only [Made.assign, elementAccepts]
  cases t.super y.ty <;> cases t.anyLike <;> simp

/-! ## Concrete cases -/

namespace Examples

def attrs (t : Asn1.Tag) : Attrs := ⟨[t], .inter .nil, []⟩
/-- `univ.BitString(...)` -/
def key (bits : List Bool) : Made := .simple .bitString (attrs ⟨.universal, false, 3⟩) (.bits bits)
def oldAlg : Ty := Rfc2459.AlgorithmIdentifier.call.ty
def newAlg : Ty := Rfc5280.AlgorithmIdentifier.call.ty
def algValue : Val := .record (.cons (.oid [1, 2]) (.cons (.octets [5, 0]) .nil))
def spki : Ty := Rfc5280.SubjectPublicKeyInfo.call.ty
def parts : Ty → Comps
  | .seq _ _ cs => cs
  | _ => .nil
/-- The key is assigned first, then another one, then an AlgorithmIdentifier of the older module. -/
def steps : List (Nat × Made) := [(1, key [true]), (1, key [false, true]), (0, Made.ofVal oldAlg algValue)]
def spkiValue : Vals := .cons algValue (.cons (.bits [false, true]) .nil)
def spkiObject : Made := .seq false spki.attrs (parts spki) (.put (Made.ofVal oldAlg algValue) (.put (key [false, true]) .nil))

theorem spki_mem : ("rfc5280.SubjectPublicKeyInfo", spki) ∈ Package.types :=
  Package.mem_types (m := Rfc5280.asModule) (c := ("rfc5280.SubjectPublicKeyInfo", Rfc5280.SubjectPublicKeyInfo))
    (by simp [Package.modules]) (by simp [Rfc5280.asModule, Rfc5280.classes])

theorem alg_narrower : newAlg.narrower oldAlg = true := by decide +kernel

theorem spki_assembled : assemble (.seq false spki.attrs (parts spki) .nil) steps = some spkiObject := by rfl

theorem spki_octets : spkiObject.enc false = some [48, 11, 48, 5, 6, 1, 42, 5, 0, 3, 2, 6, 64] := by decide +kernel

theorem spki_holds (i : Nat) (f : Field) (t : Ty) (v : Val) (hi : (parts spki).get? i = some (f, t)) (hv : spkiValue.get? i = some v) :
    Holds false f t (lastAt steps i) v := by
  match i with
  | 0 =>
    have e : (parts spki).get? 0 = some (⟨"algorithm", .req, none⟩, newAlg) := rfl
    rw [e] at hi
    simp only [Option.some.injEq, Prod.mk.injEq] at hi
    obtain ⟨rfl, rfl⟩ := hi
    simp only [spkiValue, Vals.get?, Option.some.injEq] at hv
    subst hv
    have : Stands false newAlg (Made.ofVal oldAlg algValue) algValue := class_stands false newAlg oldAlg alg_narrower algValue (by decide +kernel)
    exact .inl ⟨.inl rfl, by simp [algValue], by simp, by simp, this⟩
  | 1 =>
    have e : (parts spki).get? 1 = some (⟨"subjectPublicKey", .req, none⟩, .prim .bitString (attrs ⟨.universal, false, 3⟩)) := rfl
    rw [e] at hi
    simp only [Option.some.injEq, Prod.mk.injEq] at hi
    obtain ⟨rfl, rfl⟩ := hi
    simp only [spkiValue, Vals.get?, Option.some.injEq] at hv
    subst hv
    exact .inl ⟨.inl rfl, by simp, by simp, by simp, .simple _ _ _ _ _ rfl id⟩
  | i + 2 => simp [spkiValue, Vals.get?] at hv

/-- `assembled_decodes`. -/
theorem spki_decodes (rest : Bytes) : ∃ w, decode spki ([48, 11, 48, 5, 6, 1, 42, 5, 0, 3, 2, 6, 64] ++ rest) = some (w, rest) ∧
    spki.same false (.record spkiValue) w :=
  assembled_decodes ("rfc5280.SubjectPublicKeyInfo", spki) spki_mem (by decide +kernel) false spki.attrs (parts spki) rfl rfl steps spkiObject
    spki_assembled (by decide +kernel) spkiValue rfl spki_holds (by decide +kernel) _ rest spki_octets

/-- An AlgorithmIdentifier whose parameters, an open type, are an object: `univ.Null('')`. -/
def nullAlg : Made := .seq false newAlg.attrs (parts newAlg)
  (.put (.simple .oid (attrs ⟨.universal, false, 6⟩) (.oid [1, 2])) (.put (.simple .null (attrs ⟨.universal, false, 5⟩) .null) .nil))

/-- The second case of `Holds`. -/
theorem nullAlg_stands : Stands false newAlg nullAlg algValue ∧ nullAlg.enc false = some [48, 5, 6, 1, 42, 5, 0] := by
  refine ⟨?_, by decide +kernel⟩
  refine .seq false false newAlg.attrs newAlg.attrs (parts newAlg) (parts newAlg) _ _ rfl (fun _ => by rfl) ?_
  exact .put false _ _ _ _ _ _ _ _ _ _ rfl (.inl rfl) (by simp) (by simp) (by simp) (.simple _ _ _ _ _ rfl id)
    (.opened _ _ _ _ _ _ _ _ [5, 0] _ rfl (by simp) (by decide +kernel) rfl rfl (by simp) (by decide +kernel) (.nil false))

/-- A Validity in the place of the AlgorithmIdentifier. -/
def time : Val := .alt 0 (.str ['9', '1', '0', '5', '0', '6', '1', '6', '4', '5', '4', '0', 'Z'])
def validity : Made := Made.ofVal Rfc5280.Validity.call.ty (.record (.cons time (.cons time .nil)))

/-- `accepts_by_tags`: it is accepted and encoded; the octets are read as something else, or not at all. -/
theorem validity_accepted : ((Made.seq false spki.attrs (parts spki) (.put validity (.put (key [true]) .nil))).enc false).isSome = true ∧
    spkiObject.assign 0 validity = some (.seq false spki.attrs (parts spki) (.put validity (.put (key [false, true]) .nil))) ∧
    (((spkiObject.assign 0 validity).bind (Made.enc false)).bind (decode spki)) = none :=
  ⟨by decide +kernel, rfl, by decide +kernel⟩

/-- `accepts_all`: a UTCTime in the place of a Time stands for the Time. -/
theorem time_alternative : Stands false Rfc5280.Time.call.ty
    (.simple .utcTime (attrs ⟨.universal, false, 23⟩) (.str ['9', '1', '0', '5', '0', '6', '1', '6', '4', '5', '4', '0', 'Z'])) time :=
  .alternative false _ _ 0 _ _ _ _ rfl rfl (.simple _ _ _ _ _ rfl id)

/-- The parameters of RSASSA-PSS, all at their defaults, in an AlgorithmIdentifier: they are not encoded at all, though the
field was assigned; the octets are those of an AlgorithmIdentifier without parameters. -/
def pssAlg : Made := .seq false newAlg.attrs (parts newAlg)
  (.put (.simple .oid (attrs ⟨.universal, false, 6⟩) (.oid [1, 2]))
    (.put (.seq false Rfc4055.RSASSA_PSS_params.call.ty.attrs (parts Rfc4055.RSASSA_PSS_params.call.ty) .nil) .nil))

theorem pss_vanishes : pssAlg.enc false = some [48, 3, 6, 1, 42] ∧
    decode newAlg [48, 3, 6, 1, 42] = some (.record (.cons (.oid [1, 2]) (.cons .absent .nil)), []) := by
  exact ⟨by decide +kernel, by decide +kernel⟩

/-- `subtype_refused`: `univ.Integer` narrowed to (0..MAX), and that to (0..5). -/
theorem integer_refused (f : Field) (hf : f.openType = none) :
    let x := Py.univ.Integer.addSubtypeSpec (.range (.fin 0) .inf)
    f.accepts x.ty (x.addSubtypeSpec (.range (.fin 0) (.fin 5))).ty = false :=
  subtype_refused (Py.univ.Integer.addSubtypeSpec (.range (.fin 0) .inf)) (.range (.fin 0) (.fin 5)) .nil (.range (.fin 0) .inf)
    (by decide +kernel) (by decide +kernel) (by decide +kernel) (by decide +kernel) f hf

/-- `subtype_accepted`: a serial number narrowed to (0..5). -/
theorem serial_accepted (f : Field) : f.accepts Rfc5280.CertificateSerialNumber.ty
    (Rfc5280.CertificateSerialNumber.addSubtypeSpec (.range (.fin 0) (.fin 5))).ty = true :=
  subtype_accepted Rfc5280.CertificateSerialNumber (.range (.fin 0) (.fin 5)) (by decide +kernel) (by decide +kernel) (by decide +kernel) f

/-- `explicit_refused` and `implicit_refused`: an AlgorithmIdentifier with [0]. -/
theorem alg_refused (f : Field) (hf : f.openType = none) :
    f.accepts (Rfc5280.AlgorithmIdentifier.call.explicitTag ⟨.context, true, 0⟩).ty newAlg = false ∧
      f.accepts (Rfc5280.AlgorithmIdentifier.call.implicitTag ⟨.context, true, 0⟩).ty newAlg = false := by
  refine ⟨explicit_refused Rfc5280.AlgorithmIdentifier _ (by decide +kernel) (by decide +kernel) f hf,
    implicit_refused Rfc5280.AlgorithmIdentifier _ (by decide +kernel) (by decide +kernel) ?_ f hf⟩
  intro l hl
  have e : Rfc5280.AlgorithmIdentifier.call.ty.tags.getLast? = some ⟨.universal, true, 16⟩ := by decide +kernel
  rw [e] at hl
  simp only [Option.some.injEq] at hl
  subst hl
  simp

/-- `successor_component`: rfc2459.Name where an rfc5280.Name is expected. -/
theorem name_row : ⟨"rfc2459.Name", Rfc2459.Name, "rfc5280.Name", Rfc5280.Name⟩ ∈ compatible ∧
    ("rfc2459.Name", "rfc5280.Name") ∉ refused ∧ "rfc2459.Name" ∉ Package.defective :=
  ⟨List.mem_of_getElem? (i := 298) rfl, by decide +kernel, by decide +kernel⟩

end Examples

end Assign
end Props
end Verif
