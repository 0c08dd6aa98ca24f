import Verif.Gen.Names
import Verif.Package.Types
import Verif.Props.Compat
import Verif.Spec.Names

/-!
# C74: classes of the same name

`Names.blocks` lists the names of all classes, with the definitions each name has in the modules, and for two definitions
of a name octets that only one of them reads, if there are any.
-/

namespace Verif
namespace Props
namespace Names

open Asn1 Verif.Names

/-- All names. -/
def groups : List Group := blocks.flatten

/-- The type of a definition. -/
def _root_.Verif.Names.Group.ty? (g : Group) (i : Nat) : Option Ty := g.defs[i]?.map (fun o => o.call.ty)

/-! ## Every class is in the list -/

def lookup (p : Nat × Nat × Nat) : Option (Group × Py.Obj) :=
  match blocks[p.1]? with
  | none => none
  | some gs => match gs[p.2.1]? with
    | none => none
    | some g => g.defs[p.2.2]?.map (fun o => (g, o))

def entry (m : List Char) (p : Nat × Nat × Nat) : Option (String × Py.Obj) :=
  (lookup p).map (fun g => (String.ofList (m ++ '.' :: g.1.name), g.2))

set_option maxRecDepth 100000 in
theorem listed : Package.modules.map (fun m => m.classes.map some) = table.map (fun m => m.2.map (entry m.1)) := by rfl

theorem no_dot : table.all (fun m => !m.1.contains '.') = true := by decide +kernel

theorem lookup_some (p : Nat × Nat × Nat) (g : Group) (o : Py.Obj) (h : lookup p = some (g, o)) :
    g ∈ groups ∧ g.defs[p.2.2]? = some o := by
  simp only [lookup] at h
  split at h
  · simp at h
  · rename_i gs h1
    split at h
    · simp at h
    · rename_i g' h2
      cases h3 : g'.defs[p.2.2]? with
      | none => simp [h3] at h
      | some o' =>
        simp only [h3, Option.map_some, Option.some.injEq, Prod.mk.injEq] at h
        obtain ⟨rfl, rfl⟩ := h
        exact ⟨List.mem_flatten.2 ⟨gs, List.mem_of_getElem? h1, List.mem_of_getElem? h2⟩, h3⟩

/-- Every class of the package has its name and its definition in the list. -/
theorem found (c : String × Ty) (hc : c ∈ Package.types) :
    ∃ g ∈ groups, ∃ i m, g.ty? i = some c.2 ∧ c.1 = String.ofList (m ++ '.' :: g.name) ∧ '.' ∉ m := by
  obtain ⟨md, hm, hc⟩ := List.mem_flatMap.1 hc
  obtain ⟨cl, hcl, rfl⟩ := List.mem_map.1 hc
  have h1 : md.classes.map some ∈ table.map (fun m => m.2.map (entry m.1)) := by
    rw [← listed]
    exact List.mem_map.2 ⟨md, hm, rfl⟩
  obtain ⟨row, hr, h2⟩ := List.mem_map.1 h1
  have h3 : some cl ∈ row.2.map (entry row.1) := by
    rw [h2]
    exact List.mem_map.2 ⟨cl, hcl, rfl⟩
  obtain ⟨p, _, h4⟩ := List.mem_map.1 h3
  simp only [entry] at h4
  cases h5 : lookup p with
  | none => simp [h5] at h4
  | some q =>
    simp only [h5, Option.map_some, Option.some.injEq] at h4
    obtain ⟨h6, h7⟩ := lookup_some p q.1 q.2 h5
    subst h4
    exact ⟨q.1, h6, p.2.2, row.1, by simp [Group.ty?, h7], rfl, by simpa using List.all_eq_true.1 no_dot row hr⟩

/-! ## A name is in the list once -/

def ascending : List (List Char) → Bool
  | a :: b :: l => decide (a < b) && ascending (b :: l)
  | _ => true

theorem ascending_lt : ∀ (l : List (List Char)) (a : List Char), ascending (a :: l) = true → ∀ x ∈ l, a < x
  | [], _, _, _, hx => by simp at hx
  | b :: l, a, h, x, hx => by
    simp only [ascending, Bool.and_eq_true, decide_eq_true_eq] at h
    rcases List.mem_cons.1 hx with rfl | hx
    · exact h.1
    · exact List.lt_trans h.1 (ascending_lt l b h.2 x hx)

theorem once : ∀ (gs : List Group), ascending (gs.map (·.name)) = true → ∀ g ∈ gs, ∀ g' ∈ gs, g.name = g'.name → g = g'
  | [], _, _, hg, _, _, _ => by simp at hg
  | a :: gs, h, g, hg, g', hg', hn => by
    have hl : ∀ x ∈ gs, a.name < x.name := fun x hx => ascending_lt _ _ h _ (List.mem_map.2 ⟨x, hx, rfl⟩)
    have ht : ascending (gs.map (·.name)) = true := by
      cases gs with
      | nil => rfl
      | cons b gs =>
        simp only [List.map_cons, ascending, Bool.and_eq_true] at h
        exact h.2
    rcases List.mem_cons.1 hg with rfl | hg <;> rcases List.mem_cons.1 hg' with rfl | hg'
    · rfl
    · have := hl _ hg'
      rw [hn] at this
      exact absurd this (List.lt_irrefl _)
    · have := hl g (by assumption)
      rw [hn] at this
      exact absurd this (List.lt_irrefl _)
    · exact once gs ht g hg g' hg' hn

set_option maxRecDepth 100000 in
theorem names_ascending : ascending (groups.map (·.name)) = true := by decide +kernel

theorem first_part (m m' n n' : List Char) (h : m ++ '.' :: n = m' ++ '.' :: n') (hm : '.' ∉ m) (hm' : '.' ∉ m') : n = n' := by
  rcases List.append_eq_append_iff.1 h with ⟨x, h1, h2⟩ | ⟨x, h1, h2⟩
  · cases x with
    | nil => simpa using h2
    | cons y ys =>
      simp only [List.cons_append, List.cons.injEq] at h2
      exact absurd (by rw [h1, ← h2.1]; exact List.mem_append_right _ (List.mem_cons_self ..)) hm'
  · cases x with
    | nil => simpa using h2.symm
    | cons y ys =>
      simp only [List.cons_append, List.cons.injEq] at h2
      exact absurd (by rw [h1, ← h2.1]; exact List.mem_append_right _ (List.mem_cons_self ..)) hm

/-- Two classes with the same name are two definitions, or one, of one name in the list. -/
theorem same_group (k : String) (c d : String × Ty) (hc : c ∈ Package.types) (hd : d ∈ Package.types) (hk : Named k c.1)
    (hk' : Named k d.1) : ∃ g ∈ groups, g.name = k.toList ∧ ∃ i j, g.ty? i = some c.2 ∧ g.ty? j = some d.2 := by
  have name : ∀ (g : Group) (m : List Char) (n : String), n = String.ofList (m ++ '.' :: g.name) → '.' ∉ m → Named k n →
      g.name = k.toList := by
    intro g m n h1 h2 h3
    obtain ⟨m', h3, h4⟩ := h3
    have h := congrArg String.toList (h1.symm.trans h3)
    simp only [String.toList_ofList, String.toList_append] at h
    exact first_part m m'.toList _ _ (by simpa using h) h2 h4
  obtain ⟨g, hg, i, m, h1, h2, n1⟩ := found c hc
  obtain ⟨g', hg', j, m', h3, h4, n2⟩ := found d hd
  have e := name g m c.1 h2 n1 hk
  obtain rfl := once groups names_ascending g hg g' hg' (e.trans (name g' m' d.1 h4 n2 hk').symm)
  exact ⟨g, hg, e, i, j, h1, h3⟩

/-! ## Reading with another class of the same name -/

/-- What the class of type `t` reads, the class of type `u` reads as a value that says the same, with the same rest. -/
def Reads (t u : Ty) : Prop := ∀ b rest v, decode t b = some (v, rest) → ∃ w, decode u b = some (w, rest) ∧ u.rel t v w

/-- What the class of type `t` reads, the class of type `u` reads, with the same rest. -/
def Accepts (t u : Ty) : Prop := ∀ b rest v, decode t b = some (v, rest) → ∃ w, decode u b = some (w, rest)

/-- The definitions of the name but for those in `apart` and `other` are read component for component. -/
def agree (g : Group) : Bool :=
  (List.range g.defs.length).all (fun i => (List.range g.defs.length).all (fun j =>
    i == j || g.apart.any (fun p => p.1 == i && p.2.1 == j) || g.other.contains (i, j) ||
      match g.ty? i, g.ty? j with
      | some t, some u => u.sub t
      | _, _ => false))

def differ (g : Group) : Bool := g.apart.all (fun p =>
  match g.ty? p.1, g.ty? p.2.1 with
  | some t, some u => (decode t p.2.2).isSome && (decode u p.2.2).isNone
  | _, _ => false)

set_option maxRecDepth 100000 in
theorem agree_table : groups.all agree = true := by decide +kernel

set_option maxRecDepth 100000 in
theorem differ_table : groups.all differ = true := by decide +kernel
/-! ### Definitions that are not read component for component -/

/-- Elements of the one type are elements of the other. -/
def Elements (t u : Ty) : Prop := ∀ x, x.whole → decT t x ≠ none → decT u x ≠ none

/-- The same for lists of elements. -/
def Lists (cs ds : Comps) : Prop := ∀ xs, (∀ x ∈ xs, x.whole) → decComps cs xs ≠ none → decComps ds xs ≠ none

theorem elements_sub (t u : Ty) (h : u.sub t = true) : Elements t u := by
  intro x hx hd
  cases hv : decT t x with
  | none => exact absurd hv hd
  | some v =>
    obtain ⟨w, hw, _⟩ := covers_dec u t x v hx (covers_of_sub u t v h (decT_admits t x v hv)) hv
    simp [hw]

theorem accepts_elements (t u : Ty) (h : Elements t u) : Accepts t u := by
  intro b rest v hd
  simp only [decode] at hd ⊢
  split at hd
  · simp at hd
  · rename_i x r hx
    split at hd
    · simp at hd
    · rename_i v' hv
      have := h x (readTLV_raw _ _ _ hx) (by simp [hv])
      cases hw : decT u x with
      | none => exact absurd hw this
      | some w =>
        simp only [Option.some.injEq, Prod.mk.injEq] at hd
        exact ⟨w, by simp [hd.2]⟩

theorem elements_seq (a a' : Attrs) (cs ds : Comps) (ha : a.tags.bare = a'.tags.bare) (hs : a'.spec = .inter .nil) (h : Lists cs ds) :
    Elements (.seq false a cs) (.seq false a' ds) := by
  intro x _ hd
  simp only [decT, innerItems_bare a a' x ha] at hd ⊢
  cases hi : innerItems a' x with
  | none => simp [hi] at hd
  | some xs =>
    simp only [hi, Bool.false_eq_true, if_false] at hd ⊢
    have := h xs (innerItems_whole a' x xs hi) (by intro hn; simp [hn] at hd)
    cases hw : decComps ds xs with
    | none => exact absurd hw this
    | some ws => simp [hs, Constraint.ok, Constraints.all]

theorem lists_nil : Lists .nil .nil := fun _ _ h => h

theorem lists_req (f g : Field) (t u : Ty) (cs ds : Comps) (hf : f.mode = .req) (hg : g.mode = .req) (h : Elements t u) (hl : Lists cs ds) :
    Lists (.cons f t cs) (.cons g u ds) := by
  intro xs hw hd
  cases xs with
  | nil => simp [decComps, hf, Mode.missing] at hd
  | cons x xs =>
    simp only [decComps, hf, hg, Mode.isReq, Bool.true_or, if_true] at hd ⊢
    cases h1 : decT t x with
    | none => simp [h1] at hd
    | some v =>
      cases h2 : decComps cs xs with
      | none => simp [h1, h2] at hd
      | some vs =>
        have e1 := h x (hw x (List.mem_cons_self ..)) (by simp [h1])
        have e2 := hl xs (fun y hy => hw y (List.mem_cons_of_mem _ hy)) (by simp [h2])
        cases h3 : decT u x with
        | none => exact absurd h3 e1
        | some w =>
          cases h4 : decComps ds xs with
          | none => exact absurd h4 e2
          | some ws => simp

/-- An optional component more at the end. -/
theorem lists_more (g : Field) (u : Ty) (hg : g.mode = .opt) : Lists .nil (.cons g u .nil) := by
  intro xs _ hd
  cases xs with
  | nil => simp [decComps, hg, Mode.missing]
  | cons x xs => simp [decComps] at hd

/-- An ANY takes whatever comes last. -/
theorem lists_any (f g : Field) (t : Ty) (a : Attrs) (hg : g.mode = .opt) :
    Lists (.cons f t .nil) (.cons g (.prim .any a) .nil) := by
  intro xs _ hd
  cases xs with
  | nil => simp [decComps, hg, Mode.missing]
  | cons x xs =>
    have hx : xs = [] := by
      cases xs with
      | nil => rfl
      | cons y ys =>
        rw [decComps] at hd
        split at hd <;> simp [decComps] at hd
    subst hx
    have ha : ∃ w, decT (.prim .any a) x = some w := by
      simp only [decT, decPrimT, beq_self_eq_true, if_true]
      split
      · split <;> exact ⟨_, rfl⟩
      · exact ⟨_, rfl⟩
    obtain ⟨w, hw⟩ := ha
    simp [decComps, Ty.anyLike, Comps.windowMatches, hw]

/-- The definitions concerned. -/
def others : List (Py.Obj × Py.Obj) :=
  [(Rfc1155.ApplicationSyntax, Rfc1902.ApplicationSyntax), (Rfc3852.DigestedData, Rfc2315.DigestedData),
   (Rfc5652.DigestedData, Rfc2315.DigestedData), (Rfc2634.IssuerSerial, Rfc3281.IssuerSerial),
   (Rfc2634.IssuerSerial, Rfc5755.IssuerSerial)]

set_option maxRecDepth 100000 in
theorem others_all : groups.flatMap (fun g => g.other.map (fun p => (g.ty? p.1, g.ty? p.2))) =
    others.map (fun p => (some p.1.call.ty, some p.2.call.ty)) := by rfl

theorem issuerSerial_accepts (o : Py.Obj) (ho : o = Rfc3281.IssuerSerial ∨ o = Rfc5755.IssuerSerial) :
    Accepts Rfc2634.IssuerSerial.call.ty o.call.ty := by
  have : Elements Rfc2634.IssuerSerial.call.ty o.call.ty := by
    rcases ho with rfl | rfl
    · exact elements_seq _ _ _ _ (by decide +kernel) (by rfl) (lists_req _ _ _ _ _ _ rfl rfl (elements_sub _ _ (by decide +kernel))
        (lists_req _ _ _ _ _ _ rfl rfl (elements_sub _ _ (by decide +kernel)) (lists_more _ _ rfl)))
    · exact elements_seq _ _ _ _ (by decide +kernel) (by rfl) (lists_req _ _ _ _ _ _ rfl rfl (elements_sub _ _ (by decide +kernel))
        (lists_req _ _ _ _ _ _ rfl rfl (elements_sub _ _ (by decide +kernel)) (lists_more _ _ rfl)))
  exact accepts_elements _ _ this

theorem digestedData_accepts (o : Py.Obj) (ho : o = Rfc3852.DigestedData ∨ o = Rfc5652.DigestedData) :
    Accepts o.call.ty Rfc2315.DigestedData.call.ty := by
  have : Elements o.call.ty Rfc2315.DigestedData.call.ty := by
    rcases ho with rfl | rfl
    · exact elements_seq _ _ _ _ (by decide +kernel) (by rfl) (lists_req _ _ _ _ _ _ rfl rfl (elements_sub _ _ (by decide +kernel))
        (lists_req _ _ _ _ _ _ rfl rfl (elements_sub _ _ (by decide +kernel)) (lists_req _ _ _ _ _ _ rfl rfl
          (elements_seq _ _ _ _ (by decide +kernel) (by rfl) (lists_req _ _ _ _ _ _ rfl rfl (elements_sub _ _ (by decide +kernel))
            (lists_any _ _ _ _ rfl)))
          (lists_req _ _ _ _ _ _ rfl rfl (elements_sub _ _ (by decide +kernel)) lists_nil))))
    · exact elements_seq _ _ _ _ (by decide +kernel) (by rfl) (lists_req _ _ _ _ _ _ rfl rfl (elements_sub _ _ (by decide +kernel))
        (lists_req _ _ _ _ _ _ rfl rfl (elements_sub _ _ (by decide +kernel)) (lists_req _ _ _ _ _ _ rfl rfl
          (elements_seq _ _ _ _ (by decide +kernel) (by rfl) (lists_req _ _ _ _ _ _ rfl rfl (elements_sub _ _ (by decide +kernel))
            (lists_any _ _ _ _ rfl)))
          (lists_req _ _ _ _ _ _ rfl rfl (elements_sub _ _ (by decide +kernel)) lists_nil))))
  exact accepts_elements _ _ this

theorem applicationSyntax_accepts : Accepts Rfc1155.ApplicationSyntax.call.ty Rfc1902.ApplicationSyntax.call.ty :=
  fun b rest v h => Compat.nested_reads ⟨"rfc1155.ApplicationSyntax", Rfc1155.ApplicationSyntax, "rfc1902.ApplicationSyntax",
    Rfc1902.ApplicationSyntax⟩ (by simp [Successors.nested]) b rest v h

theorem other_accepts (g : Group) (hg : g ∈ groups) (p : Nat × Nat) (hp : p ∈ g.other) (t u : Ty) (ht : g.ty? p.1 = some t)
    (hu : g.ty? p.2 = some u) : Accepts t u := by
  have h : (some t, some u) ∈ groups.flatMap (fun g => g.other.map (fun p => (g.ty? p.1, g.ty? p.2))) :=
    List.mem_flatMap.2 ⟨g, hg, List.mem_map.2 ⟨p, hp, by simp [ht, hu]⟩⟩
  rw [others_all] at h
  obtain ⟨q, hq, h⟩ := List.mem_map.1 h
  simp only [Prod.mk.injEq, Option.some.injEq] at h
  rw [← h.1, ← h.2]
  simp only [others, List.mem_cons, List.not_mem_nil, or_false] at hq
  rcases hq with rfl | rfl | rfl | rfl | rfl
  · exact applicationSyntax_accepts
  · exact digestedData_accepts _ (.inl rfl)
  · exact digestedData_accepts _ (.inr rfl)
  · exact issuerSerial_accepts _ (.inl rfl)
  · exact issuerSerial_accepts _ (.inr rfl)

/-! ## The package -/

/-- The list has octets that are read with the one type and not with the other. -/
def Apart (t u : Ty) : Prop := ∃ g ∈ groups, ∃ p ∈ g.apart, g.ty? p.1 = some t ∧ g.ty? p.2.1 = some u

/-- The list has the two types as ones of which the second reads what the first reads, but not component for component. -/
def Other (t u : Ty) : Prop := ∃ g ∈ groups, ∃ p ∈ g.other, g.ty? p.1 = some t ∧ g.ty? p.2 = some u

theorem ty_lt (g : Group) (i : Nat) (t : Ty) (h : g.ty? i = some t) : i < g.defs.length := by
  rcases Nat.lt_or_ge i g.defs.length with hl | hl
  · exact hl
  · simp [Group.ty?, List.getElem?_eq_none hl] at h

theorem cases_of (g : Group) (hg : g ∈ groups) (i j : Nat) (t u : Ty) (hi : g.ty? i = some t) (hj : g.ty? j = some u) :
    t = u ∨ (∃ p ∈ g.apart, g.ty? p.1 = some t ∧ g.ty? p.2.1 = some u) ∨
      (∃ p ∈ g.other, g.ty? p.1 = some t ∧ g.ty? p.2 = some u) ∨ u.sub t = true := by
  have h := List.all_eq_true.1 (List.all_eq_true.1 (List.all_eq_true.1 agree_table g hg) i
    (List.mem_range.2 (ty_lt g i _ hi))) j (List.mem_range.2 (ty_lt g j _ hj))
  simp only [Bool.or_eq_true, beq_iff_eq, List.any_eq_true, Bool.and_eq_true, List.contains_iff_mem, hi, hj] at h
  rcases h with ((rfl | ⟨p, hp, rfl, rfl⟩) | h) | h
  · exact .inl (Option.some.inj (hi.symm.trans hj))
  · exact .inr (.inl ⟨p, hp, hi, hj⟩)
  · exact .inr (.inr (.inl ⟨_, h, hi, hj⟩))
  · exact .inr (.inr (.inr h))

/-- C74: octets that a class reads are read by every class of the same name, with the same rest, but for the pairs in the
list; but for five more pairs they are read as a value that says the same. -/
theorem namesake_reads (c d : String × Ty) (hc : c ∈ Package.types) (hd : d ∈ Package.types) (hn : Same c.1 d.1)
    (ha : ¬ Apart c.2 d.2) (ho : ¬ Other c.2 d.2) : c.2 = d.2 ∨ Reads c.2 d.2 := by
  obtain ⟨k, hk, hk'⟩ := hn
  obtain ⟨g, hg, _, i, j, hi, hj⟩ := same_group k c d hc hd hk hk'
  rcases cases_of g hg i j _ _ hi hj with h | h | h | h
  · exact .inl h
  · exact absurd ⟨g, hg, h⟩ ha
  · exact absurd ⟨g, hg, h⟩ ho
  · exact .inr (fun b rest v hv => sub_decode d.2 c.2 b rest v hv h)

/-- C74: for the pairs in the list there are octets that only the first class reads. -/
theorem namesake_refuses (t u : Ty) (h : Apart t u) : ∃ b v, decode t b = some v ∧ decode u b = none := by
  obtain ⟨g, hg, p, hp, ht, hu⟩ := h
  have h := List.all_eq_true.1 (List.all_eq_true.1 differ_table g hg) p hp
  simp only [ht, hu, Bool.and_eq_true, Option.isNone_iff_eq_none] at h
  obtain ⟨v, hv⟩ := Option.isSome_iff_exists.1 h.1
  exact ⟨p.2.2, v, hv, h.2⟩

/-- C74: a class reads all that another class of the same name reads exactly if the two are not in the list. -/
theorem namesake_iff (c d : String × Ty) (hc : c ∈ Package.types) (hd : d ∈ Package.types) (hn : Same c.1 d.1) :
    Accepts c.2 d.2 ↔ ¬ Apart c.2 d.2 := by
  constructor
  · intro h ha
    obtain ⟨b, v, h1, h2⟩ := namesake_refuses _ _ ha
    obtain ⟨w, h3⟩ := h b v.2 v.1 h1
    simp [h2] at h3
  · intro ha b rest v hv
    obtain ⟨k, hk, hk'⟩ := hn
    obtain ⟨g, hg, _, i, j, hi, hj⟩ := same_group k c d hc hd hk hk'
    rcases cases_of g hg i j _ _ hi hj with h | h | ⟨p, hp, h1, h2⟩ | h
    · exact ⟨v, h ▸ hv⟩
    · exact absurd ⟨g, hg, h⟩ ha
    · exact other_accepts g hg p hp _ _ h1 h2 b rest v hv
    · obtain ⟨w, hw, _⟩ := sub_decode d.2 c.2 b rest v hv h
      exact ⟨w, hw⟩

/-- C74: every legal value of a class is written as octets that the other class reads as a value that says the same. -/
theorem namesake_sent (c d : String × Ty) (hc : c ∈ Package.types) (hd : d ∈ Package.types) (hn : Same c.1 d.1)
    (ha : ¬ Apart c.2 d.2) (ho : ¬ Other c.2 d.2) (hx : c.1 ∉ Package.defective) (v : Val) (hv : c.2.valid v = true)
    (hw : c.2.weight v < Codec.maxOctets) :
    ∃ b v' w, encode c.2 v = some b ∧ c.2.same false v v' ∧ decode d.2 b = some (w, []) ∧ (c.2 = d.2 ∧ w = v' ∨ d.2.rel c.2 v' w) := by
  obtain ⟨b, v', h1, h2, h3, _⟩ := Codec.roundtrip_ty c.2 (Package.wf_of_mem hc hx) v hv hw
  have h := h3 []
  rw [List.append_nil] at h
  rcases namesake_reads c d hc hd hn ha ho with he | hr
  · exact ⟨b, v', v', h1, h2, he ▸ h, .inl ⟨he, rfl⟩⟩
  · obtain ⟨w, h4, h5⟩ := hr b [] v' h
    exact ⟨b, v', w, h1, h2, h4, .inr h5⟩

/-- The names that do not stand for the same everywhere. -/
def parted : List String :=
  ["AccessDescription", "ApplicationSyntax", "Attribute", "AttributeType", "AttributeValue", "AttributeValueAssertion",
   "Attributes", "AuthorityInfoAccessSyntax", "AuthorityKeyIdentifier", "BaseCRLNumber", "BuiltInStandardAttributes",
   "CRLNumber", "CertId", "CertReqMessages", "CertReqMsg", "CertStatus", "CertificateIssuer", "CertificatePolicies",
   "Clearance", "Community", "CompressedData", "CompressionAlgorithmIdentifier", "ContentInfo", "Controls",
   "DigestedData", "DirectoryString", "DisplayText", "DistributionPoint", "DistributionPointName", "DomainParameters",
   "ECParameters", "EDIPartyName", "EmailAddress", "EncryptedData", "EncryptedKey", "EnvelopedData",
   "ExtendedNetworkAddress", "ExtensionAttribute", "ExtensionAttributes", "FriendlyName", "GeneralName", "GeneralNames",
   "GeneralSubtree", "GeneralSubtrees", "GetNextRequestPDU", "GetRequestPDU", "IssuerAltName", "IssuerSerial",
   "IssuingDistributionPoint", "KeyPkgVersion", "Manifest", "Message", "NameConstraints", "NetworkAddress",
   "NoticeReference", "OCSPRequest", "ORAddress", "ObjectSyntax", "OldCertId", "PBMParameter", "PKIArchiveOptions",
   "PKIPublicationInfo", "POPOPrivKey", "POPOSigningKey", "POPOSigningKeyInput", "PersonalName", "PolicyConstraints",
   "PolicyInformation", "PolicyQualifierId", "PolicyQualifierInfo", "PresentationAddress", "PrivateKeyInfo",
   "ProofOfPossession", "RSAES_OAEP_params", "RSAPrivateKey", "RecipientInfo", "RecipientInfos", "SSID", "SSIDList",
   "SetRequestPDU", "Signature", "SignaturePolicy", "SignedData", "SignerInfo", "SignerInfos", "SimpleSyntax",
   "SinglePubInfo", "SkipCerts", "SubjectAltName", "TBSRequest", "TeletexDomainDefinedAttribute",
   "TeletexDomainDefinedAttributes", "TeletexPersonalName", "TerminalType", "UnformattedPostalAddress", "UserNotice",
   "VarBind", "VarBindList"]

set_option maxRecDepth 100000 in
theorem parted_all : (groups.filter (fun g => !g.apart.isEmpty)).map (fun g => String.ofList g.name) = parted := by rfl

/-- C74: for any other name, all classes with the name read the same octets, leaving the same rest. -/
theorem interchangeable (k : String) (hp : k ∉ parted) (c d : String × Ty) (hc : c ∈ Package.types) (hd : d ∈ Package.types)
    (hk : Named k c.1) (hk' : Named k d.1) (b rest : Bytes) :
    (∃ v, decode c.2 b = some (v, rest)) ↔ ∃ v, decode d.2 b = some (v, rest) := by
  obtain ⟨g, hg, hn, i, j, hi, hj⟩ := same_group k c d hc hd hk hk'
  have ha : g.apart = [] := by
    cases he : g.apart with
    | nil => rfl
    | cons p ps =>
      refine absurd ?_ hp
      rw [← parted_all]
      exact List.mem_map.2 ⟨g, List.mem_filter.2 ⟨hg, by simp [he]⟩, by rw [hn, String.ofList_toList]⟩
  have key : ∀ i j t u, g.ty? i = some t → g.ty? j = some u → Accepts t u := by
    intro i j t u hi hj b rest v hv
    rcases cases_of g hg i j _ _ hi hj with h | ⟨p, hp, _⟩ | ⟨p, hp, h1, h2⟩ | h
    · exact ⟨v, h ▸ hv⟩
    · simp [ha] at hp
    · exact other_accepts g hg p hp _ _ h1 h2 b rest v hv
    · obtain ⟨w, hw, _⟩ := sub_decode u t b rest v hv h
      exact ⟨w, hw⟩
  exact ⟨fun ⟨v, h⟩ => key i j _ _ hi hj b rest v h, fun ⟨v, h⟩ => key j i _ _ hj hi b rest v h⟩

set_option maxRecDepth 100000 in
/-- How many: names, names with several definitions, names that do not stand for the same, pairs of definitions in the list. -/
theorem count : groups.length = 1041 ∧ (groups.filter (fun g => 1 < g.defs.length)).length = 299 ∧ parted.length = 98 ∧
    (groups.map (fun g => g.apart.length)).sum = 364 := by decide +kernel

/-! ### Cases -/

theorem known (m : Py.Module) (i j : Nat) (c : String × Py.Obj) (hm : Package.modules[i]? = some m) (hc : m.classes[j]? = some c) :
    (c.1, c.2.call.ty) ∈ Package.types := Package.mem_types (List.mem_of_getElem? hm) (List.mem_of_getElem? hc)

/-- Certificates of rfc2459 and rfc5280: the one is read wherever the other is. -/
example (b rest : Bytes) : (∃ v, decode Rfc2459.Certificate.call.ty b = some (v, rest)) ↔
    ∃ v, decode Rfc5280.Certificate.call.ty b = some (v, rest) :=
  interchangeable "Certificate" (by decide +kernel) ("rfc2459.Certificate", _) ("rfc5280.Certificate", _)
    (known Rfc2459.asModule 9 126 ("rfc2459.Certificate", Rfc2459.Certificate) rfl rfl)
    (known Rfc5280.asModule 60 76 ("rfc5280.Certificate", Rfc5280.Certificate) rfl rfl)
    ⟨"rfc2459", by decide +kernel, by decide +kernel⟩ ⟨"rfc5280", by decide +kernel, by decide +kernel⟩ b rest

/-- The number of a CRL is read by rfc5280 and not by rfc2459, where no number is in range. -/
example : decode Rfc5280.CRLNumber.call.ty [2, 1, 0] = some (.int 0, []) ∧ decode Rfc2459.CRLNumber.call.ty [2, 1, 0] = none := by
  decide +kernel

/-- The two `GeneralName`s are in the list: an EDI party name is read by the older one only. -/
example : Apart Rfc2459.GeneralName.call.ty Rfc5280.GeneralName.call.ty :=
  ⟨_, List.mem_of_getElem? (l := groups) (i := 380) rfl, _, List.mem_of_getElem? (i := 2) rfl, rfl, rfl⟩

end Names
end Props
end Verif
