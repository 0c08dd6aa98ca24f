import Verif.Asn1.HeapMade
import Verif.Props.Assign

/-!
# C66: shared objects

pyasn1 stores the objects that are assigned, not copies of them.  A program can change an object only if it holds an object that
has a part in common with it; what it makes, decodes or copies is its own.  Conversely, an object assigned to two places is one
object, and changes are seen in both.  As long as no object is assigned to a component of a part of itself, objects look like
trees, and assigning is what it is for trees (C60, C63).
-/

namespace Verif
namespace Props
namespace Sharing

open Asn1

/-! ## Who can change an object -/

/-- C66: whatever a program that holds the objects `S` does, an object that has no part in common with them is the same
afterwards, is encoded as before, and still has no part in common with anything the program holds. -/
theorem confined (h : Heap) (S : List Nat) (h' : Heap) (S' : List Nat) (hs : Held h S) (s : Steps h S h' S') (y : Nat) (t : Tree)
    (ha : Apart h S y) (hy : Shows h y t) : Shows h' y t ∧ Apart h' S' y ∧ ∀ b, Encodes h y b → Encodes h' y b := by
  obtain ⟨_, _, h3⟩ := steps_hidden s hs
  have hd : ∀ c, Reach h y c → h'[c]? = h[c]? ∧ Hidden h' S' c := fun c r =>
    h3 c (r.lt hs.1 hy.lt) (fun a haS r' => ha a haS c r' r)
  have hy' := hy.frame (fun c r => (hd c r).1)
  refine ⟨hy', ?_, ?_⟩
  · intro a haS c r r'
    exact (hd c (r'.frame' (fun c r => (hd c r).1))).2 a haS r
  · rintro b ⟨u, m, h4, h5, h6⟩
    exact ⟨u, m, h4.det hy ▸ hy', h5, h6⟩

/-- C66: an object that nothing held leads to keeps its components, though these may be changed themselves. -/
theorem components_kept (h : Heap) (S : List Nat) (h' : Heap) (S' : List Nat) (hs : Held h S) (s : Steps h S h' S') (x : Nat)
    (hx : x < h.length) (hh : ∀ a ∈ S, ¬ Reach h a x) (i : Nat) : h'.kid x i = h.kid x i ∧ ∀ a ∈ S', ¬ Reach h' a x := by
  obtain ⟨_, _, h3⟩ := steps_hidden s hs
  obtain ⟨h4, h5⟩ := h3 x hx hh
  exact ⟨by simp only [Heap.kid, h4], h5⟩

/-- C66: a simple object, such as an INTEGER, keeps its value for ever, whoever holds it: sharing it makes no difference. -/
theorem simple_kept (h : Heap) (S : List Nat) (h' : Heap) (S' : List Nat) (hs : Held h S) (s : Steps h S h' S') (y : Nat) (k : Prim)
    (a : Attrs) (v : Option Val) (hy : h[y]? = some ⟨.prim k a, v, []⟩) : Shows h' y (.node (.prim k a) v .nil) := by
  have : h'[y]? = some ⟨.prim k a, v, []⟩ := by
    induction s with
    | refl h S => exact hy
    | step h S h' S' h'' S'' s1 _ ih => exact ih (step_hidden s1 hs).1 (step_simple s1 hs hy)
  exact Shows.node y ⟨.prim k a, v, []⟩ .nil this .nil

/-- C66: a new object, however it came about, looks as it should and has no part in common with those that exist; these are
as they were. -/
theorem new_apart (h : Heap) (ok : h.Ok) (t : Tree) : Held (allocate t h).1 [(allocate t h).2] ∧
    Shows (allocate t h).1 (allocate t h).2 t ∧ ∀ y < h.length, Apart (allocate t h).1 [(allocate t h).2] y ∧
      Apart (allocate t h).1 [y] (allocate t h).2 ∧ ∀ u, Shows h y u → Shows (allocate t h).1 y u := by
  obtain ⟨g, h1, h2, h3⟩ := allocate_spec t h ok
  refine ⟨⟨g.ok ok, fun a ha => by simp only [List.mem_singleton] at ha; rw [ha]; exact h2⟩, h3, ?_⟩
  intro y hy
  have hsep : ∀ c, Reach (allocate t h).1 (allocate t h).2 c → ¬ Reach (allocate t h).1 y c := by
    intro c r r'
    have h4 := g.reach h1 r
    have h5 := (r'.frame' (g.old ok hy)).lt ok hy
    omega
  refine ⟨?_, ?_, fun u hu => hu.frame (g.old ok hy)⟩
  · intro a ha c r r'
    simp only [List.mem_singleton] at ha
    subst ha
    exact hsep c r r'
  · intro a ha c r r'
    simp only [List.mem_singleton] at ha
    subst ha
    exact hsep c r' r

/-- C66: an object and a copy of it go separate ways: what is done with one is not seen in the other. -/
theorem copy_independent (h : Heap) (ok : h.Ok) (y : Nat) (t : Tree) (hy : Shows h y t) (h' : Heap) (S' : List Nat) :
    (Steps (allocate t h).1 [(allocate t h).2] h' S' → Shows h' y t) ∧
      (Steps (allocate t h).1 [y] h' S' → Shows h' (allocate t h).2 t) := by
  obtain ⟨h1, h2, h3⟩ := new_apart h ok t
  obtain ⟨h4, h5, h6⟩ := h3 y hy.lt
  refine ⟨fun s => (confined _ _ _ _ h1 s y t h4 (h6 t hy)).1, fun s => (confined _ _ _ _ ⟨h1.1, ?_⟩ s _ t h5 h2).1⟩
  intro a ha
  simp only [List.mem_singleton] at ha
  subst ha
  exact (h6 t hy).lt

/-- C66: what `decode` returns is encoded as its value is, and stays so whatever is done with the objects there were
before. -/
theorem decoded_private (c : String × Ty) (hc : c ∈ Package.types) (hn : c.1 ∉ InMemory.conditional) (v : Val) (hv : c.2.valid v = true)
    (b : Bytes) (he : encode c.2 v = some b) (h : Heap) (S : List Nat) (hs : Held h S) (h' : Heap) (S' : List Nat)
    (s : Steps (allocate (.ofVal c.2 v) h).1 S h' S') : Encodes h' (allocate (.ofVal c.2 v) h).2 b := by
  obtain ⟨h1, h2, h3⟩ := new_apart h hs.1 (.ofVal c.2 v)
  have hS : Held (allocate (.ofVal c.2 v) h).1 S :=
    ⟨h1.1, fun a ha => Nat.lt_of_lt_of_le (hs.2 a ha) (allocate_spec _ h hs.1).1.length⟩
  have ha : Apart (allocate (.ofVal c.2 v) h).1 S (allocate (.ofVal c.2 v) h).2 := fun a haS d r =>
    (h3 a (hs.2 a haS)).2.1 a (by simp) d r
  refine (confined _ _ _ _ hS s _ _ ha h2).2.2 b ⟨_, _, h2, Tree.ofVal_made _ _ hv, ?_⟩
  rw [(Assign.own_encoded c hc hn v hv).1]
  exact he

/-! ## One object in several places -/

/-- C66: after `x[i] = y` the component is `y` itself, and the others are as before, except that a CHOICE has no others; no
other object is changed. -/
theorem assigned_itself (h : Heap) (x i y : Nat) (c : Cell) (hc : h[x]? = some c) : (h.put x i y).kid x i = some y ∧
    (∀ j, j ≠ i → (h.put x i y).kid x j = match c.ty with
      | .choice _ _ => none
      | _ => h.kid x j) ∧ ∀ z, z ≠ x → (h.put x i y)[z]? = h[z]? := by
  refine ⟨by simp only [Heap.kid, Heap.put_eq i y hc, Option.bind_some, Cell.put_kid], ?_, fun z hz => Heap.put_ne h i y hz⟩
  intro j hj
  simp only [Heap.kid, Heap.put_eq i y hc, hc, Option.bind_some, Cell.put, Cell.kid]
  cases c.ty <;> simp [putKid_other _ i j hj]

/-- C66: wherever an object is found, it looks the same. -/
theorem found_same (h : Heap) : ∀ (p : List Nat) (x z : Nat) (t : Tree), Shows h x t → h.walk x p = some z →
    ∃ u, t.at p = some u ∧ Shows h z u
  | [], x, z, t, hx, hw => by
    simp only [Heap.walk, Option.some.injEq] at hw
    subst hw
    exact ⟨t, by rw [Tree.at.eq_1], hx⟩
  | i :: p, x, z, t, hx, hw => by
    simp only [Heap.walk, Option.bind_eq_some_iff] at hw
    obtain ⟨b, h1, h2⟩ := hw
    cases hx with
    | node _ c ks e k =>
      simp only [Heap.kid, Cell.kid, e, Option.bind_some, Option.join_eq_some_iff] at h1
      obtain ⟨kt, h3, h4⟩ := k.get h1
      obtain ⟨u, h5, h6⟩ := found_same h p b z kt h4 h2
      exact ⟨u, by rw [Tree.at.eq_2, h3]; exact h5, h6⟩

/-- C66: if `y` is a component of `x`, whatever a program that does not hold `x` makes of `y` is what is seen in `x`. -/
theorem shared_seen (h : Heap) (S : List Nat) (h' : Heap) (S' : List Nat) (hs : Held h S) (s : Steps h S h' S') (x i y : Nat)
    (hk : h.kid x i = some y) (hh : ∀ a ∈ S, ¬ Reach h a x) (t' : Tree) (ht : Shows h' x t') :
    ∃ u', Shows h' y u' ∧ t'.at [i] = some u' := by
  have hx : x < h.length := by
    obtain ⟨c, h1, _⟩ := kid_edge hk
    exact (List.getElem?_eq_some_iff.1 h1).1
  have hk' := (components_kept h S h' S' hs s x hx hh i).1.trans hk
  obtain ⟨u, h1, h2⟩ := found_same h' [i] x y t' ht (by simp [Heap.walk, hk'])
  exact ⟨u, h2, h1⟩

/-! ## Objects that are parts of themselves -/

/-- C66: after `x[i] = y`, `x` looks like a tree if and only if `x` is not a part of `y`. -/
theorem cycle_iff (h : Heap) (ht : h.Trees) (x i y : Nat) (hx : x < h.length) (hy : y < h.length) :
    (∃ t, Shows (h.put x i y) x t) ↔ ¬ Reach h y x := by
  obtain ⟨c, hc⟩ : ∃ c, h[x]? = some c := ⟨h[x], by simp [hx]⟩
  constructor
  · rintro ⟨t, s⟩ r
    exact s.acyclic ⟨c.put i y, Heap.put_eq i y hc, Cell.put_mem c i y⟩ r.to_put
  · intro hr
    obtain ⟨t, h1⟩ := ht x hx
    obtain ⟨u, h2⟩ := ht y hy
    exact ⟨_, h1.put h2 hr⟩

/-- C66: an object one of whose parts is a part of itself is never encoded. -/
theorem cyclic_not_encoded (h : Heap) (a x i y : Nat) (ha : Reach h a x) (hk : h.kid x i = some y) (hr : Reach h y x) (b : Bytes) :
    ¬ Encodes h a b := by
  rintro ⟨t, m, h1, _, _⟩
  obtain ⟨u, h2, _⟩ := h1.reach ha
  exact h2.acyclic (kid_edge hk) hr

/-- C66: as long as all objects look like trees, only an assignment of an object to a component of one of its own parts can
change that. -/
theorem step_trees (h : Heap) (S : List Nat) (h' : Heap) (S' : List Nat) (hs : Held h S) (ht : h.Trees) (s : Step h S h' S') :
    h'.Trees ∨ ∃ x i y, x ∈ S ∧ y ∈ S ∧ h' = h.put x i y ∧ Reach h y x := by
  have hnew : ∀ t, (allocate t h).1.Trees := by
    intro t a ha
    obtain ⟨g, h1, h2, h3⟩ := allocate_spec t h hs.1
    by_cases hl : a < h.length
    · obtain ⟨u, hu⟩ := ht a hl
      exact ⟨u, hu.frame (g.old hs.1 hl)⟩
    · exact g.trees (a + 1) a (by omega) (by omega) ha
  have hput : ∀ (k : Heap) (x i y : Nat), k.Trees → x < k.length → y < k.length → ¬ Reach k y x → (k.put x i y).Trees := by
    intro k x i y hk hx hy hr a ha
    obtain ⟨t, h1⟩ := hk x hx
    obtain ⟨u, h2⟩ := hk y hy
    rw [Heap.put_length] at ha
    obtain ⟨w, h3⟩ := hk a ha
    exact Shows.rebuild (h1.put h2 hr) (fun b hb => Heap.put_ne k i y hb) h3
  cases s with
  | new t => exact .inl (hnew t)
  | read x i y _ _ => exact .inl ht
  | create x i c t hx hc hk hi =>
    have hn := held_new hs t
    obtain ⟨g, h1, h2, h3⟩ := allocate_spec t h hs.1
    refine .inl (hput _ x i _ (hnew t) (hn.2 x (by simp [hx])) h2 ?_)
    intro r
    have := g.reach h1 r
    have := hs.2 x hx
    omega
  | assign x i y c d hx hy _ _ _ =>
    by_cases hr : Reach h y x
    · exact .inr ⟨x, i, y, hx, hy, rfl, hr⟩
    · exact .inl (hput h x i y ht (hs.2 x hx) (hs.2 y hy) hr)
  | clear x hx =>
    refine .inl ?_
    intro a ha
    rw [Heap.clear_length] at ha
    obtain ⟨t, h1⟩ := ht x (hs.2 x hx)
    obtain ⟨w, h3⟩ := ht a ha
    cases t with
    | node ty v ks => exact Shows.rebuild h1.clear (fun b hb => Heap.clear_ne h hb) h3
  | drop _ _ => exact .inl ht

/-! ## Objects that are not shared -/

/-- C66: assigning to a component of `z` leaves objects alone that `z` is not a part of. -/
theorem not_reached (h : Heap) (x z i y : Nat) (t : Tree) (hx : Shows h x t) (hr : ¬ Reach h x z) : Shows (h.put z i y) x t :=
  hx.frame (fun _ r => Heap.put_ne h i y (fun e => hr (e ▸ r)))

/-- C66: if there is one way from `x` to its part `z`, `x.….z[i] = y` changes `x` in this place and nowhere else. -/
theorem one_place (h : Heap) (x z i y : Nat) (p : List Nat) (t u : Tree) (hx : Shows h x t) (hy : Shows h y u) (hr : ¬ Reach h y z)
    (hp : h.walk x p = some z) (h1 : ∀ q, h.walk x q = some z → q = p) :
    ∃ t', t.setAt p i u = some t' ∧ Shows (h.put z i y) x t' := update_at hy hr p hx hp h1

/-- C66: assigning in memory is assigning as in C63, if `x` is not a part of `y`. -/
theorem assign_exact (h : Heap) (x i y : Nat) (t u : Tree) (m o m' : Made) (hx : Shows h x t) (hy : Shows h y u) (hm : t.made = some m)
    (ho : u.made = some o) (hr : ¬ Reach h y x) (ha : m.assign i o = some m') :
    ∃ t', Shows (h.put x i y) x t' ∧ t'.made = some m' := ⟨_, hx.put hy hr, Tree.made_set hm ho i ha⟩

/-- C66: and it is possible exactly if it is there: for components of SEQUENCE, SET and CHOICE, and for elements put at the
end of a list. -/
theorem assign_possible (h : Heap) (x i y : Nat) (t u : Tree) (m o : Made) (c d : Cell) (hx : Shows h x t) (hy : Shows h y u)
    (hm : t.made = some m) (ho : u.made = some o) (hc : h[x]? = some c) (hd : h[y]? = some d)
    (hi : ∀ s a t, c.ty = .of s a t → i = c.kids.length) : c.accepts i d.ty = true ↔ ∃ m', m.assign i o = some m' := by
  rw [accepts_assign hx hy hm ho hc hd hi, Option.isSome_iff_exists]

/-! ## Cases -/

namespace Case

/-- rfc5280.AlgorithmIdentifier -/
def alg : Ty := Rfc5280.AlgorithmIdentifier.call.ty

def simple (o : Py.Obj) (v : Val) : Tree := .node o.ty (some v) .nil

/-- `sha1Identifier` (rfc4055.py:62-64) -/
def sha1 : Tree := .node alg none (.put (simple Rfc4055.id_sha1 (.oid [1, 3, 14, 3, 2, 26])) (.put (simple Py.univ.Null.call .null) .nil))

/-- `mgf1SHA1Identifier` before its parameters are assigned (rfc4055.py:82-83) -/
def mgf1 : Tree := .node alg none (.put (simple Rfc4055.id_mgf1 (.oid [1, 2, 840, 113549, 1, 1, 8])) .nil)

/-- another value for parameters -/
def octets : Tree := simple Py.univ.OctetString.call (.octets [])

/-- Memory after rfc4055.py:62-84: `sha1Identifier` is at 2, `mgf1SHA1Identifier` at 4. -/
def loaded : Heap := (allocate mgf1 (allocate sha1 []).1).1.put 4 1 2

/-- Memory after `rfc4055.sha1Identifier['parameters'] = univ.OctetString('')`. -/
def spoilt : Heap := (allocate octets loaded).1.put 2 1 5

theorem cells : loaded = [⟨Rfc4055.id_sha1.ty, some (.oid [1, 3, 14, 3, 2, 26]), []⟩, ⟨Py.univ.Null.call.ty, some .null, []⟩,
    ⟨alg, none, [some 0, some 1]⟩, ⟨Rfc4055.id_mgf1.ty, some (.oid [1, 2, 840, 113549, 1, 1, 8]), []⟩, ⟨alg, none, [some 3, some 2]⟩] := rfl

/-- The module makes them this way. -/
theorem loads : Steps [] [] loaded [4, 2] :=
  .step _ _ _ _ _ _ (.new [] [] sha1) (.step _ _ _ _ _ _ (.new _ _ mgf1)
    (.step _ _ _ _ _ _ (.assign _ _ 4 1 2 ⟨alg, none, [some 3]⟩ ⟨alg, none, [some 0, some 1]⟩ (List.mem_cons_self ..)
      (List.mem_cons_of_mem _ (List.mem_cons_self ..)) rfl rfl (by decide +kernel)) (.refl _ _)))

theorem held : Held loaded [4, 2] := (steps_hidden loads ⟨fun a c h => by simp at h, by simp⟩).1

/-- A program that uses `sha1Identifier` only. -/
theorem spoils : Steps loaded [2] spoilt [5, 2] :=
  .step _ _ _ _ _ _ (.new _ _ octets)
    (.step _ _ _ _ _ _ (.assign _ _ 2 1 5 ⟨alg, none, [some 0, some 1]⟩ ⟨Py.univ.OctetString.call.ty, some (.octets []), []⟩
      (List.mem_cons_of_mem _ (List.mem_cons_self ..)) (List.mem_cons_self ..) rfl rfl (by decide +kernel)) (.refl _ _))

theorem before : Shows loaded 4 (mgf1.set 1 sha1) :=
  Shows.node 4 ⟨alg, none, [some 3, some 2]⟩ _ rfl
    (.put _ _ _ _ (Shows.node 3 ⟨_, _, []⟩ .nil rfl .nil)
      (.put _ _ _ _ (Shows.node 2 ⟨alg, none, [some 0, some 1]⟩ _ rfl
        (.put _ _ _ _ (Shows.node 0 ⟨_, _, []⟩ .nil rfl .nil) (.put _ _ _ _ (Shows.node 1 ⟨_, _, []⟩ .nil rfl .nil) .nil))) .nil))

theorem after : Shows spoilt 4 (mgf1.set 1 (sha1.set 1 octets)) :=
  Shows.node 4 ⟨alg, none, [some 3, some 2]⟩ _ rfl
    (.put _ _ _ _ (Shows.node 3 ⟨_, _, []⟩ .nil rfl .nil)
      (.put _ _ _ _ (Shows.node 2 ⟨alg, none, [some 0, some 5]⟩ _ rfl
        (.put _ _ _ _ (Shows.node 0 ⟨_, _, []⟩ .nil rfl .nil) (.put _ _ _ _ (Shows.node 5 ⟨_, _, []⟩ .nil rfl .nil) .nil))) .nil))

end Case

/-- C66: the constants of rfc4055 share objects: a program that assigns to a component of `sha1Identifier` changes
`mgf1SHA1Identifier`, which from then on is encoded differently. -/
theorem constants_shared : Steps [] [] Case.loaded [4, 2] ∧ Steps Case.loaded [2] Case.spoilt [5, 2] ∧
    Encodes Case.loaded 4 [48, 22, 6, 9, 42, 134, 72, 134, 247, 13, 1, 1, 8, 48, 9, 6, 5, 43, 14, 3, 2, 26, 5, 0] ∧
    Encodes Case.spoilt 4 [48, 22, 6, 9, 42, 134, 72, 134, 247, 13, 1, 1, 8, 48, 9, 6, 5, 43, 14, 3, 2, 26, 4, 0] :=
  ⟨Case.loads, Case.spoils, ⟨_, _, Case.before, rfl, by decide +kernel⟩, ⟨_, _, Case.after, rfl, by decide +kernel⟩⟩

/-- C66: an AlgorithmIdentifier can be assigned as its own parameters: the test that is made of the object lets it pass.
It is never encoded. -/
theorem own_parameters : ∃ h, Steps [] [] h [0] ∧ h.kid 0 1 = some 0 ∧ ∀ b, ¬ Encodes h 0 b := by
  refine ⟨((allocate (.fresh Case.alg) []).1).put 0 1 0, .step _ _ _ _ _ _ (.new [] [] (.fresh Case.alg)) (.step _ _ _ _ _ _
    (.assign _ _ 0 1 0 ⟨Case.alg, none, []⟩ ⟨Case.alg, none, []⟩ (List.mem_cons_self ..) (List.mem_cons_self ..) rfl rfl
      (by decide +kernel)) (.refl _ _)), rfl, fun b => ?_⟩
  exact cyclic_not_encoded _ 0 0 1 0 (.refl 0) rfl (.refl 0) b

/-! The hypotheses are met. -/

namespace Case

theorem up {a b : Nat} (r : Reach loaded a b) (ha : a ≤ 2) : b ≤ 2 := by
  refine r.closed (P := (· ≤ 2)) ?_ ha
  rintro a b ha ⟨c, h1, h2⟩
  rw [cells] at h1
  match a, ha with
  | 0, _ => simp at h1; subst h1; simp at h2
  | 1, _ => simp at h1; subst h1; simp at h2
  | 2, _ => simp at h1; subst h1; simp at h2; omega

/-- `shared_seen`: `mgf1SHA1Identifier` is not held, its parameters are. -/
example : ∃ u', Shows spoilt 2 u' ∧ (mgf1.set 1 (sha1.set 1 octets)).at [1] = some u' :=
  shared_seen loaded [2] spoilt [5, 2] ⟨held.1, fun a ha => held.2 a (by simp at ha; simp [ha])⟩ spoils 4 1 2 rfl
    (fun a ha r => by simp at ha; subst ha; have := up r (by omega); omega) _ after

/-- `simple_kept`: the object identifier of `sha1Identifier`. -/
example : Shows spoilt 0 (simple Rfc4055.id_sha1 (.oid [1, 3, 14, 3, 2, 26])) :=
  simple_kept loaded [2] spoilt [5, 2] ⟨held.1, fun a ha => held.2 a (by simp at ha; simp [ha])⟩ spoils 0 _ _ _ rfl

/-- `confined`: `sha1Identifier` cleared by a program that holds nothing else does not affect a new object. -/
example : Shows (((allocate sha1 loaded).1).clear 2) (allocate sha1 loaded).2 sha1 :=
  (copy_independent loaded held.1 2 sha1
    (Shows.node 2 ⟨alg, none, [some 0, some 1]⟩ _ rfl
        (.put _ _ _ _ (Shows.node 0 ⟨_, _, []⟩ .nil rfl .nil) (.put _ _ _ _ (Shows.node 1 ⟨_, _, []⟩ .nil rfl .nil) .nil))) _ [2]).2
    (.step _ _ _ _ _ _ (.clear _ _ 2 (by simp)) (.refl _ _))

theorem one_way : ∀ q, loaded.walk 4 q = some 2 → q = [1]
  | [], h => by simp [Heap.walk] at h
  | [0], h => by simp [Heap.walk, cells, Heap.kid, Cell.kid] at h
  | 0 :: j :: q, h => by simp [Heap.walk, cells, Heap.kid, Cell.kid] at h
  | [1], _ => rfl
  | [1, 0], h => by simp [Heap.walk, cells, Heap.kid, Cell.kid] at h
  | 1 :: 0 :: j :: q, h => by simp [Heap.walk, cells, Heap.kid, Cell.kid] at h
  | [1, 1], h => by simp [Heap.walk, cells, Heap.kid, Cell.kid] at h
  | 1 :: 1 :: j :: q, h => by simp [Heap.walk, cells, Heap.kid, Cell.kid] at h
  | 1 :: (i + 2) :: q, h => by simp [Heap.walk, cells, Heap.kid, Cell.kid] at h
  | (i + 2) :: q, h => by simp [Heap.walk, cells, Heap.kid, Cell.kid] at h

/-- `one_place`: the parameters of `mgf1SHA1Identifier` get the parameters that its algorithm is (address 3). -/
example : ∃ t', (mgf1.set 1 sha1).setAt [1] 1 (simple Rfc4055.id_mgf1 (.oid [1, 2, 840, 113549, 1, 1, 8])) = some t' ∧
    Shows (loaded.put 2 1 3) 4 t' :=
  one_place loaded 4 2 1 3 [1] _ _ before (Shows.node 3 ⟨_, _, []⟩ .nil rfl .nil)
    (fun r => by
      have := r.closed (P := (· = 3)) (fun a b ha ⟨c, h1, h2⟩ => by subst ha; rw [cells] at h1; simp at h1; subst h1; simp at h2) rfl
      omega) rfl one_way

theorem trees : loaded.Trees := by
  have h2 := (before.reach (.of_edge (kid_edge (x := 4) (i := 1) (y := 2) rfl) (.refl 2)))
  have h3 := (before.reach (.of_edge (kid_edge (x := 4) (i := 0) (y := 3) rfl) (.refl 3)))
  have h0 := (before.reach (.of_edge (kid_edge (x := 4) (i := 1) (y := 2) rfl) (.of_edge (kid_edge (x := 2) (i := 0) (y := 0) rfl) (.refl 0))))
  have h1 := (before.reach (.of_edge (kid_edge (x := 4) (i := 1) (y := 2) rfl) (.of_edge (kid_edge (x := 2) (i := 1) (y := 1) rfl) (.refl 1))))
  intro a ha
  match a, ha with
  | 0, _ => exact ⟨_, h0.choose_spec.1⟩
  | 1, _ => exact ⟨_, h1.choose_spec.1⟩
  | 2, _ => exact ⟨_, h2.choose_spec.1⟩
  | 3, _ => exact ⟨_, h3.choose_spec.1⟩
  | 4, _ => exact ⟨_, before⟩
  | a + 5, h => simp [cells] at h; omega

/-- `cycle_iff`: `sha1Identifier['parameters'] = mgf1SHA1Identifier` closes a circle. -/
example : ¬ ∃ t, Shows (loaded.put 2 1 4) 2 t := fun hs =>
  (cycle_iff loaded trees 2 1 4 (by decide) (by decide)).1 hs (.of_edge (kid_edge (x := 4) (i := 1) (y := 2) rfl) (.refl 2))

/-- `decoded_private`, `assign_exact` -/
example : (Tree.ofVal alg (.record (.cons (.oid [1, 2]) (.cons .absent .nil)))).made =
    some (Made.ofVal alg (.record (.cons (.oid [1, 2]) (.cons .absent .nil)))) ∧
    alg.valid (.record (.cons (.oid [1, 2]) (.cons .absent .nil))) = true ∧
    ((Made.ofVal alg (.record (.cons (.oid [1, 2]) (.cons .absent .nil)))).assign 1 (Made.simple .null Py.univ.Null.call.ty.attrs .null)).isSome = true :=
  ⟨Tree.ofVal_made _ _ (by decide +kernel), by decide +kernel, by decide +kernel⟩

end Case

end Sharing
end Props
end Verif
