import Verif.Spec.Sharing

/-! Lemmas: shared objects. -/

namespace Verif
namespace Asn1

/-- The edge relation of `Reach`. -/
def Heap.Edge (h : Heap) (a b : Nat) : Prop := ∃ c, h[a]? = some c ∧ some b ∈ c.kids

theorem edge_iff {h : Heap} {a b : Nat} : some b ∈ ((h[a]?).map Cell.kids).getD [] ↔ h.Edge a b := by
  unfold Heap.Edge
  cases h[a]? <;> simp

theorem Reach.of_edge {h : Heap} {a b c : Nat} (e : h.Edge a b) (r : Reach h b c) : Reach h a c := .step a b c (edge_iff.2 e) r

theorem Reach.trans {h : Heap} {a b c : Nat} (r : Reach h a b) (s : Reach h b c) : Reach h a c := by
  induction r with
  | refl a => exact s
  | step a b _ e _ ih => exact .step a b c e (ih s)

theorem Reach.snoc {h : Heap} {a b c : Nat} (r : Reach h a b) (e : h.Edge b c) : Reach h a c :=
  r.trans (.of_edge e (.refl c))

/-- Anything closed under edges that holds at the start holds at the end. -/
theorem Reach.closed {h : Heap} {P : Nat → Prop} (hP : ∀ a b, P a → h.Edge a b → P b) {a b : Nat} (r : Reach h a b) (ha : P a) :
    P b := by
  induction r with
  | refl a => exact ha
  | step a b _ e _ ih => exact ih (hP a b ha (edge_iff.1 e))

theorem Reach.lt {h : Heap} (ok : h.Ok) {a b : Nat} (r : Reach h a b) (ha : a < h.length) : b < h.length :=
  r.closed (P := (· < h.length)) (fun _ _ _ ⟨c, h1, h2⟩ => ok _ c h1 _ h2) ha

/-! ## What is not reached does not matter -/

mutual
theorem Shows.frame {h h' : Heap} : ∀ {y : Nat} {t : Tree}, Shows h y t → (∀ c, Reach h y c → h'[c]? = h[c]?) → Shows h' y t
  | _, _, .node a c ks e k, hr => by
    refine .node a c ks (by rw [hr a (.refl a)]; exact e) (k.frame ?_)
    intro b hb d hd
    exact hr d (.of_edge ⟨c, e, hb⟩ hd)
theorem ShowsKids.frame {h h' : Heap} : ∀ {as : List (Option Nat)} {ks : Kids}, ShowsKids h as ks →
    (∀ b, some b ∈ as → ∀ c, Reach h b c → h'[c]? = h[c]?) → ShowsKids h' as ks
  | _, _, .nil, _ => .nil
  | _, _, .gap as ks k, hr => .gap as ks (k.frame (fun b hb => hr b (by simp [hb])))
  | _, _, .put a t as ks s k, hr => .put a t as ks (s.frame (hr a (by simp))) (k.frame (fun b hb => hr b (by simp [hb])))
end

theorem Reach.frame {h h' : Heap} {y c : Nat} (r : Reach h y c) (hr : ∀ c, Reach h y c → h'[c]? = h[c]?) : Reach h' y c := by
  induction r with
  | refl a => exact .refl a
  | step a b c e _ ih =>
    refine .step a b c (by rw [hr a (.refl a)]; exact e) (ih ?_)
    intro d hd
    exact hr d (.step a b d e hd)

theorem Reach.frame' {h h' : Heap} {y c : Nat} (r : Reach h' y c) (hr : ∀ c, Reach h y c → h'[c]? = h[c]?) : Reach h y c := by
  induction r with
  | refl a => exact .refl a
  | step a b c e _ ih =>
    rw [hr a (.refl a)] at e
    refine .step a b c e (ih ?_)
    intro d hd
    exact hr d (.step a b d e hd)

/-! ## Looks are determined -/

mutual
theorem Shows.det {h : Heap} : ∀ {a : Nat} {t u : Tree}, Shows h a t → Shows h a u → t = u
  | _, _, _, .node a c ks e k, s => by
    cases s with
    | node _ c' ks' e' k' =>
      rw [e] at e'
      cases e'
      rw [k.det k']
theorem ShowsKids.det {h : Heap} : ∀ {as : List (Option Nat)} {ks ls : Kids}, ShowsKids h as ks → ShowsKids h as ls → ks = ls
  | _, _, _, .nil, s => by cases s; rfl
  | _, _, _, .gap as ks k, s => by cases s with | gap _ ls k' => rw [k.det k']
  | _, _, _, .put a t as ks d k, s => by cases s with | put _ u _ ls d' k' => rw [d.det d', k.det k']
end

mutual
/-- Number of objects of a tree. -/
def Tree.count : Tree → Nat
  | .node _ _ ks => 1 + ks.count
def Kids.count : Kids → Nat
  | .nil => 0
  | .gap ks => ks.count
  | .put t ks => t.count + ks.count
end

theorem ShowsKids.mem {h : Heap} {b : Nat} : ∀ {as : List (Option Nat)} {ks : Kids}, ShowsKids h as ks → some b ∈ as →
    ∃ u, Shows h b u ∧ u.count ≤ ks.count
  | _, _, .nil, hb => by simp at hb
  | _, _, .gap as ks k, hb => by
    simp at hb
    obtain ⟨u, h1, h2⟩ := k.mem hb
    exact ⟨u, h1, by simpa [Kids.count] using h2⟩
  | _, _, .put a t as ks s k, hb => by
    simp at hb
    rcases hb with rfl | hb
    · exact ⟨t, s, by simp [Kids.count]⟩
    · obtain ⟨u, h1, h2⟩ := k.mem hb
      exact ⟨u, h1, by simp [Kids.count]; omega⟩

theorem Shows.edge {h : Heap} {a b : Nat} {t : Tree} (s : Shows h a t) (e : h.Edge a b) : ∃ u, Shows h b u ∧ u.count < t.count := by
  obtain ⟨c, e1, e2⟩ := e
  cases s with
  | node _ c' ks e' k =>
    rw [e1] at e'
    cases e'
    obtain ⟨u, h1, h2⟩ := k.mem e2
    exact ⟨u, h1, by simp [Tree.count]; omega⟩

theorem Shows.reach {h : Heap} {a b : Nat} (r : Reach h a b) : ∀ {t : Tree}, Shows h a t → ∃ u, Shows h b u ∧ u.count ≤ t.count := by
  induction r with
  | refl a => intro t s; exact ⟨t, s, Nat.le_refl _⟩
  | step a b c e _ ih =>
    intro t s
    obtain ⟨u, h1, h2⟩ := s.edge (edge_iff.1 e)
    obtain ⟨w, h3, h4⟩ := ih h1
    exact ⟨w, h3, by omega⟩

/-- An object that is a part of itself looks like no tree. -/
theorem Shows.acyclic {h : Heap} {a b : Nat} {t : Tree} (s : Shows h a t) (e : h.Edge a b) : ¬ Reach h b a := by
  intro r
  obtain ⟨u, h1, h2⟩ := s.edge e
  obtain ⟨w, h3, h4⟩ := h1.reach r
  have := s.det h3
  subst this
  omega

theorem Shows.lt {h : Heap} {a : Nat} {t : Tree} (s : Shows h a t) : a < h.length := by
  cases s with
  | node _ c ks e k =>
    obtain ⟨h1, _⟩ := List.getElem?_eq_some_iff.1 e
    exact h1

/-! ## New objects -/

/-- Memory `h` with new objects, whose components are new and older than they are. -/
structure Grows (h h' : Heap) : Prop where
  pre : ∃ e, h' = h ++ e
  new : ∀ i c, h.length ≤ i → h'[i]? = some c → ∀ b, some b ∈ c.kids → h.length ≤ b ∧ b < i

theorem Grows.refl (h : Heap) : Grows h h :=
  ⟨⟨[], by simp⟩, fun i c hi hc => by
    obtain ⟨h1, _⟩ := List.getElem?_eq_some_iff.1 hc
    omega⟩

theorem Grows.length {h h' : Heap} (x : Grows h h') : h.length ≤ h'.length := by
  obtain ⟨e, rfl⟩ := x.pre; simp

theorem Grows.get {h h' : Heap} (x : Grows h h') {a : Nat} (ha : a < h.length) : h'[a]? = h[a]? := by
  obtain ⟨e, rfl⟩ := x.pre
  exact List.getElem?_append_left ha

theorem Grows.trans {h h' h'' : Heap} (x : Grows h h') (y : Grows h' h'') : Grows h h'' := by
  refine ⟨?_, ?_⟩
  · obtain ⟨e, rfl⟩ := x.pre
    obtain ⟨f, rfl⟩ := y.pre
    exact ⟨e ++ f, by simp⟩
  · intro i c hi hc b hb
    by_cases h1 : i < h'.length
    · rw [y.get h1] at hc
      exact x.new i c hi hc b hb
    · have := y.new i c (by omega) hc b hb
      have := x.length
      omega

theorem Grows.ok {h h' : Heap} (x : Grows h h') (ok : h.Ok) : h'.Ok := by
  intro a c hc b hb
  by_cases h1 : a < h.length
  · rw [x.get h1] at hc
    have := ok a c hc b hb
    have := x.length
    omega
  · have h2 := x.new a c (by omega) hc b hb
    obtain ⟨h3, _⟩ := List.getElem?_eq_some_iff.1 hc
    omega

/-- Old objects reach what they reached. -/
theorem Grows.old {h h' : Heap} (x : Grows h h') (ok : h.Ok) {y : Nat} (hy : y < h.length) :
    ∀ c, Reach h y c → h'[c]? = h[c]? := fun _ r => x.get (r.lt ok hy)

/-- New objects reach new ones only. -/
theorem Grows.reach {h h' : Heap} (x : Grows h h') {a b : Nat} (ha : h.length ≤ a) (r : Reach h' a b) : h.length ≤ b :=
  r.closed (P := (h.length ≤ ·)) (fun a b ha ⟨c, h1, h2⟩ => (x.new a c ha h1 b h2).1) ha

theorem ShowsKids.old {h h' : Heap} (x : Grows h h') (ok : h.Ok) {as : List (Option Nat)} {ks : Kids} (s : ShowsKids h as ks)
    (ha : ∀ b, some b ∈ as → b < h.length) : ShowsKids h' as ks :=
  s.frame (fun b hb c r => x.get (r.lt ok (ha b hb)))

mutual
theorem allocate_spec : ∀ (t : Tree) (h : Heap), h.Ok → Grows h (allocate t h).1 ∧ h.length ≤ (allocate t h).2 ∧
    (allocate t h).2 < (allocate t h).1.length ∧ Shows (allocate t h).1 (allocate t h).2 t
  | .node ty v ks, h, ok => by
    obtain ⟨x, hn, s⟩ := allocateAll_spec ks h ok
    simp only [allocate]
    have y : Grows h ((allocateAll ks h).1 ++ [⟨ty, v, (allocateAll ks h).2⟩]) := by
      refine ⟨?_, ?_⟩
      · obtain ⟨e, he⟩ := x.pre
        exact ⟨e ++ [⟨ty, v, (allocateAll ks h).2⟩], by rw [he]; simp⟩
      · intro i c hi hc b hb
        by_cases h1 : i < (allocateAll ks h).1.length
        · rw [List.getElem?_append_left h1] at hc
          exact x.new i c hi hc b hb
        · rw [List.getElem?_append_right (by omega)] at hc
          have : i = (allocateAll ks h).1.length := by
            obtain ⟨h2, _⟩ := List.getElem?_eq_some_iff.1 hc
            simp at h2
            omega
          subst this
          simp at hc
          subst hc
          exact hn b hb
    refine ⟨y, x.length, by simp, ?_⟩
    have hg : ((allocateAll ks h).1 ++ [(⟨ty, v, (allocateAll ks h).2⟩ : Cell)])[(allocateAll ks h).1.length]? =
        some ⟨ty, v, (allocateAll ks h).2⟩ := by simp
    refine Shows.node _ ⟨ty, v, (allocateAll ks h).2⟩ ks hg ?_
    refine s.frame ?_
    intro b hb c r
    refine List.getElem?_append_left (r.lt (x.ok ok) (hn b hb).2)
theorem allocateAll_spec : ∀ (ks : Kids) (h : Heap), h.Ok → Grows h (allocateAll ks h).1 ∧
    (∀ b, some b ∈ (allocateAll ks h).2 → h.length ≤ b ∧ b < (allocateAll ks h).1.length) ∧
    ShowsKids (allocateAll ks h).1 (allocateAll ks h).2 ks
  | .nil, h, ok => ⟨.refl h, by simp [allocateAll], .nil⟩
  | .gap ks, h, ok => by
    obtain ⟨x, hn, s⟩ := allocateAll_spec ks h ok
    exact ⟨x, by simpa [allocateAll] using hn, .gap _ _ s⟩
  | .put t ks, h, ok => by
    obtain ⟨x, h1, h2, s⟩ := allocate_spec t h ok
    obtain ⟨y, hn, sk⟩ := allocateAll_spec ks (allocate t h).1 (x.ok ok)
    refine ⟨x.trans y, ?_, ?_⟩
    · intro b hb
      simp only [allocateAll, List.mem_cons, Option.some.injEq] at hb
      rcases hb with rfl | hb
      · exact ⟨h1, Nat.lt_of_lt_of_le h2 y.length⟩
      · have := hn b hb
        have := x.length
        exact ⟨by omega, (hn b hb).2⟩
    · exact .put _ _ _ _ (s.frame (fun c r => y.get (r.lt (x.ok ok) h2))) sk
end

theorem Grows.trees {h h' : Heap} (g : Grows h h') : ∀ (n a : Nat), a < n → h.length ≤ a → a < h'.length → ∃ t, Shows h' a t
  | 0, a, hn, _, _ => by omega
  | n + 1, a, hn, h1, h2 => by
    have hc : h'[a]? = some h'[a] := by simp [h2]
    have hk : ∀ as : List (Option Nat), (∀ b, some b ∈ as → some b ∈ h'[a].kids) → ∃ ks, ShowsKids h' as ks := by
      intro as
      induction as with
      | nil => intro _; exact ⟨_, .nil⟩
      | cons k as ih =>
        intro hs
        obtain ⟨ks, h3⟩ := ih (fun b hb => hs b (by simp [hb]))
        cases k with
        | none => exact ⟨_, .gap _ _ h3⟩
        | some b =>
          have h4 := g.new a _ h1 hc b (hs b (by simp))
          obtain ⟨t, h5⟩ := Grows.trees g n b (by omega) h4.1 (by omega)
          exact ⟨_, .put _ _ _ _ h5 h3⟩
    obtain ⟨ks, h3⟩ := hk _ (fun b hb => hb)
    exact ⟨_, .node a _ ks hc h3⟩

/-! ## Assigning -/

theorem mem_putKid {b y : Nat} : ∀ {ks : List (Option Nat)} {i : Nat}, some b ∈ putKid ks i y → b = y ∨ some b ∈ ks
  | [], 0, h => by simp [putKid] at h; exact .inl h
  | _ :: _, 0, h => by
    simp [putKid] at h
    rcases h with h | h
    · exact .inl h
    · exact .inr (by simp [h])
  | [], i + 1, h => by
    simp [putKid] at h
    exact mem_putKid h
  | k :: ks, i + 1, h => by
    simp [putKid] at h
    rcases h with h | h
    · exact .inr (by simp [h])
    · rcases mem_putKid h with h | h
      · exact .inl h
      · exact .inr (by simp [h])

theorem putKid_mem {y : Nat} : ∀ {ks : List (Option Nat)} {i : Nat}, some y ∈ putKid ks i y
  | [], 0 => by simp [putKid]
  | _ :: _, 0 => by simp [putKid]
  | [], i + 1 => by simp [putKid, putKid_mem]
  | k :: ks, i + 1 => by simp [putKid, putKid_mem]

theorem putKid_get {y : Nat} : ∀ (ks : List (Option Nat)) (i : Nat), (putKid ks i y)[i]? = some (some y)
  | [], 0 => by simp [putKid]
  | _ :: _, 0 => by simp [putKid]
  | [], i + 1 => by simp [putKid, putKid_get]
  | k :: ks, i + 1 => by simp [putKid, putKid_get]

theorem putKid_other {y : Nat} : ∀ (ks : List (Option Nat)) (i j : Nat), j ≠ i → ((putKid ks i y)[j]?).join = (ks[j]?).join
  | _, 0, 0, h => by omega
  | [], 0, j + 1, _ => by simp [putKid]
  | _ :: _, 0, j + 1, _ => by simp [putKid]
  | [], i + 1, 0, _ => by simp [putKid]
  | [], i + 1, j + 1, h => by
    have := putKid_other (y := y) [] i j (by omega)
    simpa [putKid] using this
  | k :: ks, i + 1, 0, _ => by simp [putKid]
  | k :: ks, i + 1, j + 1, h => by
    have := putKid_other (y := y) ks i j (by omega)
    simpa [putKid] using this

theorem Cell.put_kids {c : Cell} {i y b : Nat} (h : some b ∈ (c.put i y).kids) : b = y ∨ some b ∈ c.kids := by
  unfold Cell.put at h
  split at h
  · rcases mem_putKid h with h | h
    · exact .inl h
    · simp at h
  · exact mem_putKid h

theorem Cell.put_mem (c : Cell) (i y : Nat) : some y ∈ (c.put i y).kids := by
  unfold Cell.put
  split <;> exact putKid_mem

theorem Cell.put_ty (c : Cell) (i y : Nat) : (c.put i y).ty = c.ty ∧ (c.put i y).val = c.val := by
  unfold Cell.put
  split <;> simp

theorem Cell.put_kid (c : Cell) (i y : Nat) : (c.put i y).kid i = some y := by
  unfold Cell.put Cell.kid
  split <;> simp [putKid_get]

theorem Heap.put_length (h : Heap) (x i y : Nat) : (h.put x i y).length = h.length := by simp [Heap.put]

theorem Heap.put_ne (h : Heap) {x a : Nat} (i y : Nat) (ha : a ≠ x) : (h.put x i y)[a]? = h[a]? := by
  simp [Heap.put, List.getElem?_modify, Ne.symm ha]

theorem Heap.put_eq {h : Heap} {x : Nat} {c : Cell} (i y : Nat) (hc : h[x]? = some c) : (h.put x i y)[x]? = some (c.put i y) := by
  simp [Heap.put, hc]

theorem Heap.put_edge {h : Heap} {x i y a b : Nat} (e : (h.put x i y).Edge a b) : (a = x ∧ b = y) ∨ h.Edge a b := by
  obtain ⟨c, h1, h2⟩ := e
  by_cases ha : a = x
  · subst ha
    simp only [Heap.put, List.getElem?_modify, if_true] at h1
    cases hc : h[a]? with
    | none => simp [hc] at h1
    | some d =>
      simp [hc] at h1
      subst h1
      rcases Cell.put_kids h2 with h2 | h2
      · exact .inl ⟨rfl, h2⟩
      · exact .inr ⟨d, hc, h2⟩
  · rw [Heap.put_ne h i y ha] at h1
    exact .inr ⟨c, h1, h2⟩

theorem Heap.clear_length (h : Heap) (x : Nat) : (h.clear x).length = h.length := by simp [Heap.clear]

theorem Heap.clear_ne (h : Heap) {x a : Nat} (ha : a ≠ x) : (h.clear x)[a]? = h[a]? := by
  simp [Heap.clear, List.getElem?_modify, Ne.symm ha]

theorem Heap.clear_edge {h : Heap} {x a b : Nat} (e : (h.clear x).Edge a b) : h.Edge a b := by
  obtain ⟨c, h1, h2⟩ := e
  by_cases ha : a = x
  · subst ha
    simp only [Heap.clear, List.getElem?_modify, if_true] at h1
    cases hc : h[a]? with
    | none => simp [hc] at h1
    | some d =>
      simp [hc] at h1
      subst h1
      simp at h2
  · rw [Heap.clear_ne h ha] at h1
    exact ⟨c, h1, h2⟩

theorem Heap.put_ok {h : Heap} (ok : h.Ok) {x i y : Nat} (hy : y < h.length) : (h.put x i y).Ok := by
  intro a c hc b hb
  rw [Heap.put_length]
  rcases Heap.put_edge (h := h) ⟨c, hc, hb⟩ with ⟨_, rfl⟩ | ⟨d, h1, h2⟩
  · exact hy
  · exact ok a d h1 b h2

theorem Heap.clear_ok {h : Heap} (ok : h.Ok) {x : Nat} : (h.clear x).Ok := by
  intro a c hc b hb
  rw [Heap.clear_length]
  obtain ⟨d, h1, h2⟩ := Heap.clear_edge (h := h) ⟨c, hc, hb⟩
  exact ok a d h1 b h2

/-- Whatever is reached after `x[i] = y` was reached before from where one starts or from `y`. -/
theorem Reach.put {h : Heap} {x i y a b : Nat} (r : Reach (h.put x i y) a b) : Reach h a b ∨ Reach h y b := by
  refine r.closed (P := fun b => Reach h a b ∨ Reach h y b) ?_ (.inl (.refl a))
  intro b c hb e
  rcases Heap.put_edge e with ⟨_, rfl⟩ | e
  · exact .inr (.refl _)
  · rcases hb with hb | hb
    · exact .inl (hb.snoc e)
    · exact .inr (hb.snoc e)

theorem Reach.clear {h : Heap} {x a b : Nat} (r : Reach (h.clear x) a b) : Reach h a b :=
  r.closed (P := fun b => Reach h a b) (fun _ _ hb e => hb.snoc (Heap.clear_edge e)) (.refl a)

/-- The way to `x` itself is not affected by assigning to a component of `x`. -/
theorem Reach.to_put {h : Heap} {x i z a : Nat} (r : Reach h a x) : Reach (h.put x i z) a x := by
  generalize hx : x = w at r
  induction r with
  | refl a => exact .refl a
  | step a b c e _ ih =>
    subst hx
    by_cases ha : a = x
    · subst ha; exact .refl a
    · exact .step a b x (by rw [Heap.put_ne h i z ha]; exact e) (ih rfl)

theorem Reach.to_clear {h : Heap} {x a : Nat} (r : Reach h a x) : Reach (h.clear x) a x := by
  generalize hx : x = w at r
  induction r with
  | refl a => exact .refl a
  | step a b c e _ ih =>
    subst hx
    by_cases ha : a = x
    · subst ha; exact .refl a
    · exact .step a b x (by rw [Heap.clear_ne h ha]; exact e) (ih rfl)

/-! ## What a program can change -/

/-- Nothing held leads to `c`. -/
def Hidden (h : Heap) (S : List Nat) (c : Nat) : Prop := ∀ a ∈ S, ¬ Reach h a c

theorem kid_edge {h : Heap} {x i y : Nat} (hk : h.kid x i = some y) : h.Edge x y := by
  unfold Heap.kid Cell.kid at hk
  cases hc : h[x]? with
  | none => simp [hc] at hk
  | some c =>
    simp only [hc, Option.bind_some, Option.join_eq_some_iff] at hk
    exact ⟨c, hc, List.mem_of_getElem? hk⟩

theorem edge_kid {h : Heap} {x y : Nat} (e : h.Edge x y) : ∃ i, h.kid x i = some y := by
  obtain ⟨c, h1, h2⟩ := e
  obtain ⟨i, hi⟩ := List.mem_iff_getElem?.1 h2
  exact ⟨i, by simp [Heap.kid, Cell.kid, h1, hi]⟩

theorem held_new {h : Heap} {S : List Nat} (hs : Held h S) (t : Tree) : Held (allocate t h).1 ((allocate t h).2 :: S) := by
  obtain ⟨g, h1, h2, _⟩ := allocate_spec t h hs.1
  refine ⟨g.ok hs.1, ?_⟩
  intro a ha
  simp only [List.mem_cons] at ha
  rcases ha with rfl | ha
  · exact h2
  · exact Nat.lt_of_lt_of_le (hs.2 a ha) g.length

theorem hidden_new {h : Heap} {S : List Nat} (hs : Held h S) (t : Tree) {c : Nat} (hc : c < h.length) (hh : Hidden h S c) :
    (allocate t h).1[c]? = h[c]? ∧ Hidden (allocate t h).1 ((allocate t h).2 :: S) c := by
  obtain ⟨g, h1, h2, _⟩ := allocate_spec t h hs.1
  refine ⟨g.get hc, ?_⟩
  intro a ha r
  simp only [List.mem_cons] at ha
  rcases ha with rfl | ha
  · have := g.reach h1 r
    omega
  · exact hh a ha (r.frame' (g.old hs.1 (hs.2 a ha)))

theorem hidden_put {h : Heap} {S : List Nat} {x i y c : Nat} (hx : x ∈ S) (hy : y ∈ S) (hh : Hidden h S c) :
    (h.put x i y)[c]? = h[c]? ∧ Hidden (h.put x i y) S c := by
  refine ⟨Heap.put_ne h i y ?_, ?_⟩
  · rintro rfl
    exact hh c hx (.refl c)
  · intro a ha r
    rcases r.put with r | r
    · exact hh a ha r
    · exact hh y hy r

/-- One action keeps the objects held in memory, and leaves alone what nothing held leads to. -/
theorem step_hidden {h : Heap} {S : List Nat} {h' : Heap} {S' : List Nat} (s : Step h S h' S') (hs : Held h S) :
    Held h' S' ∧ h.length ≤ h'.length ∧ ∀ c < h.length, Hidden h S c → h'[c]? = h[c]? ∧ Hidden h' S' c := by
  cases s with
  | new t => exact ⟨held_new hs t, (allocate_spec t h hs.1).1.length, fun c hc hh => hidden_new hs t hc hh⟩
  | read x i y hx hk =>
    refine ⟨⟨hs.1, ?_⟩, Nat.le_refl _, fun c _ hh => ⟨rfl, ?_⟩⟩
    · intro a ha
      simp only [List.mem_cons] at ha
      rcases ha with rfl | ha
      · obtain ⟨c, h1, h2⟩ := kid_edge hk
        exact hs.1 _ c h1 _ h2
      · exact hs.2 a ha
    · intro a ha r
      simp only [List.mem_cons] at ha
      rcases ha with rfl | ha
      · exact hh x hx (.of_edge (kid_edge hk) r)
      · exact hh a ha r
  | create x i c t hx hc hk ht =>
    have hn := held_new hs t
    refine ⟨⟨Heap.put_ok hn.1 (hn.2 _ (by simp)), ?_⟩, ?_, ?_⟩
    · intro a ha
      rw [Heap.put_length]
      exact hn.2 a ha
    · rw [Heap.put_length]
      exact (allocate_spec t h hs.1).1.length
    · intro d hd hh
      obtain ⟨h1, h2⟩ := hidden_new hs t hd hh
      obtain ⟨h3, h4⟩ := hidden_put (i := i) (x := x) (y := (allocate t h).2) (by simp [hx]) (by simp) h2
      exact ⟨h3.trans h1, h4⟩
  | assign x i y c d hx hy _ _ _ =>
    refine ⟨⟨Heap.put_ok hs.1 (hs.2 y hy), ?_⟩, by rw [Heap.put_length]; exact Nat.le_refl _, fun c _ hh => hidden_put hx hy hh⟩
    intro a ha
    rw [Heap.put_length]
    exact hs.2 a ha
  | clear x hx =>
    refine ⟨⟨Heap.clear_ok hs.1, ?_⟩, by rw [Heap.clear_length]; exact Nat.le_refl _, fun c _ hh => ⟨Heap.clear_ne h ?_, ?_⟩⟩
    · intro a ha
      rw [Heap.clear_length]
      exact hs.2 a ha
    · rintro rfl
      exact hh c hx (.refl c)
    · intro a ha r
      exact hh a ha r.clear
  | drop _ hT => exact ⟨⟨hs.1, fun a ha => hs.2 a (hT ha)⟩, Nat.le_refl _, fun c _ hh => ⟨rfl, fun a ha => hh a (hT ha)⟩⟩

theorem steps_hidden {h : Heap} {S : List Nat} {h' : Heap} {S' : List Nat} (s : Steps h S h' S') (hs : Held h S) :
    Held h' S' ∧ h.length ≤ h'.length ∧ ∀ c < h.length, Hidden h S c → h'[c]? = h[c]? ∧ Hidden h' S' c := by
  induction s with
  | refl h S => exact ⟨hs, Nat.le_refl _, fun c _ hh => ⟨rfl, hh⟩⟩
  | step h S h' S' h'' S'' s1 _ ih =>
    obtain ⟨h1, h2, h3⟩ := step_hidden s1 hs
    obtain ⟨h4, h5, h6⟩ := ih h1
    refine ⟨h4, Nat.le_trans h2 h5, ?_⟩
    intro c hc hh
    obtain ⟨h7, h8⟩ := h3 c hc hh
    obtain ⟨h9, h10⟩ := h6 c (by omega) h8
    exact ⟨h9.trans h7, h10⟩

/-- A simple object is never changed: there is no way to give it another value. -/
theorem step_simple {h : Heap} {S : List Nat} {h' : Heap} {S' : List Nat} (s : Step h S h' S') (hs : Held h S) {y : Nat} {k : Prim}
    {a : Attrs} {v : Option Val} (hy : h[y]? = some ⟨.prim k a, v, []⟩) : h'[y]? = some ⟨.prim k a, v, []⟩ := by
  have hl : y < h.length := (List.getElem?_eq_some_iff.1 hy).1
  cases s with
  | new t => rw [(allocate_spec t h hs.1).1.get hl]; exact hy
  | read x i y _ _ => exact hy
  | create x i c t hx hc hk ht =>
    have hne : y ≠ x := by
      rintro rfl
      rw [hy] at hc
      cases hc
      simp [Cell.initial] at ht
    rw [Heap.put_ne _ _ _ hne, (allocate_spec t h hs.1).1.get hl]
    exact hy
  | assign x i z c d hx hz hc hd ha =>
    have hne : y ≠ x := by
      rintro rfl
      rw [hy] at hc
      cases hc
      simp [Cell.accepts] at ha
    rw [Heap.put_ne _ _ _ hne]
    exact hy
  | clear x hx =>
    by_cases hne : y = x
    · subst hne
      simp [Heap.clear, hy]
    · rw [Heap.clear_ne _ hne]
      exact hy
  | drop _ _ => exact hy

/-! ## Objects that are not part of themselves -/

mutual
theorem Shows.rebuild {h h' : Heap} {x : Nat} {u : Tree} (hx : Shows h' x u) (hne : ∀ a, a ≠ x → h'[a]? = h[a]?) :
    ∀ {a : Nat} {t : Tree}, Shows h a t → ∃ t', Shows h' a t'
  | _, _, .node a c ks e k => by
    by_cases ha : a = x
    · subst ha; exact ⟨u, hx⟩
    · obtain ⟨ks', h1⟩ := ShowsKids.rebuild hx hne k
      exact ⟨_, .node a c ks' (by rw [hne a ha]; exact e) h1⟩
theorem ShowsKids.rebuild {h h' : Heap} {x : Nat} {u : Tree} (hx : Shows h' x u) (hne : ∀ a, a ≠ x → h'[a]? = h[a]?) :
    ∀ {as : List (Option Nat)} {ks : Kids}, ShowsKids h as ks → ∃ ks', ShowsKids h' as ks'
  | _, _, .nil => ⟨_, .nil⟩
  | _, _, .gap as ks k => by
    obtain ⟨ks', h1⟩ := ShowsKids.rebuild hx hne k
    exact ⟨_, .gap as ks' h1⟩
  | _, _, .put a t as ks s k => by
    obtain ⟨t', h1⟩ := Shows.rebuild hx hne s
    obtain ⟨ks', h2⟩ := ShowsKids.rebuild hx hne k
    exact ⟨_, .put a t' as ks' h1 h2⟩
end

theorem ShowsKids.putKid {h : Heap} {y : Nat} {u : Tree} (hy : Shows h y u) :
    ∀ {as : List (Option Nat)} {ks : Kids} (i : Nat), ShowsKids h as ks → ShowsKids h (Asn1.putKid as i y) (ks.set i u)
  | _, _, 0, .nil => .put _ _ _ _ hy .nil
  | _, _, 0, .gap as ks k => .put _ _ _ _ hy k
  | _, _, 0, .put a t as ks s k => .put _ _ _ _ hy k
  | _, _, i + 1, .nil => .gap _ _ (ShowsKids.putKid hy i .nil)
  | _, _, i + 1, .gap as ks k => .gap _ _ (ShowsKids.putKid hy i k)
  | _, _, i + 1, .put a t as ks s k => .put _ _ _ _ s (ShowsKids.putKid hy i k)

/-- `x[i] = y` where `x` is not a part of `y`. -/
theorem Shows.put {h : Heap} {x y i : Nat} {t u : Tree} (hx : Shows h x t) (hy : Shows h y u) (hr : ¬ Reach h y x) :
    Shows (h.put x i y) x (t.set i u) := by
  have hy' : Shows (h.put x i y) y u := hy.frame (fun c r => Heap.put_ne h i y (fun e => hr (e ▸ r)))
  cases hx with
  | node _ c ks e k =>
    have hk : ShowsKids (h.put x i y) c.kids ks := k.frame (fun b hb d r => Heap.put_ne h i y (fun e' =>
      (Shows.node x c ks e k).acyclic ⟨c, e, hb⟩ (e' ▸ r)))
    have hp := Heap.put_eq i y e
    by_cases hch : ∃ a cs, c.ty = .choice a cs
    · obtain ⟨a, cs, hch⟩ := hch
      have h1 : c.put i y = { c with kids := Asn1.putKid [] i y } := by simp only [Cell.put, hch]
      have h2 : (Tree.node c.ty c.val ks).set i u = .node c.ty c.val (Kids.set .nil i u) := by rw [hch]; rfl
      rw [h1] at hp
      rw [h2]
      exact Shows.node x { c with kids := Asn1.putKid [] i y } _ hp (ShowsKids.putKid hy' i .nil)
    · have h1 : c.put i y = { c with kids := Asn1.putKid c.kids i y } := by
        unfold Cell.put
        split
        · rename_i a cs hh
          exact absurd ⟨a, cs, hh⟩ hch
        · rfl
      have h2 : (Tree.node c.ty c.val ks).set i u = .node c.ty c.val (ks.set i u) := by
        cases hty : c.ty <;> first | rfl | exact absurd ⟨_, _, hty⟩ hch
      rw [h1] at hp
      rw [h2]
      exact Shows.node x { c with kids := Asn1.putKid c.kids i y } _ hp (ShowsKids.putKid hy' i hk)

theorem Shows.clear {h : Heap} {x : Nat} {ty : Ty} {v : Option Val} {ks : Kids} (hx : Shows h x (.node ty v ks)) :
    Shows (h.clear x) x (.node ty v .nil) := by
  cases hx with
  | node _ c ks e k =>
    have hp : (h.clear x)[x]? = some { c with kids := [] } := by simp [Heap.clear, e]
    exact Shows.node x { c with kids := [] } _ hp .nil

/-! ## One way to a part -/

theorem walk_reach {h : Heap} : ∀ {p : List Nat} {x z : Nat}, h.walk x p = some z → Reach h x z
  | [], x, z, hw => by simp [Heap.walk] at hw; subst hw; exact .refl _
  | i :: p, x, z, hw => by
    simp only [Heap.walk, Option.bind_eq_some_iff] at hw
    obtain ⟨b, h1, h2⟩ := hw
    exact .of_edge (kid_edge h1) (walk_reach h2)

theorem reach_walk {h : Heap} {x z : Nat} (r : Reach h x z) : ∃ p, h.walk x p = some z := by
  induction r with
  | refl a => exact ⟨[], rfl⟩
  | step a b c e _ ih =>
    obtain ⟨p, hp⟩ := ih
    obtain ⟨i, hi⟩ := edge_kid (edge_iff.1 e)
    exact ⟨i :: p, by simp [Heap.walk, hi, hp]⟩

theorem ShowsKids.get {h : Heap} {b : Nat} : ∀ {as : List (Option Nat)} {ks : Kids} {j : Nat}, ShowsKids h as ks →
    as[j]? = some (some b) → ∃ k, ks.get? j = some k ∧ Shows h b k
  | _, _, _, .nil, hb => by simp at hb
  | _, _, 0, .gap as ks k, hb => by simp at hb
  | _, _, j + 1, .gap as ks k, hb => by
    simp at hb
    exact k.get hb
  | _, _, 0, .put a t as ks s k, hb => by
    simp at hb
    subst hb
    exact ⟨t, rfl, s⟩
  | _, _, j + 1, .put a t as ks s k, hb => by
    simp at hb
    exact k.get hb

theorem ShowsKids.change {h h' : Heap} {b : Nat} {k' : Tree} (hb' : Shows h' b k') :
    ∀ {as : List (Option Nat)} {ks : Kids} {j : Nat}, ShowsKids h as ks → as[j]? = some (some b) →
      (∀ j' b', j' ≠ j → as[j']? = some (some b') → ∀ c, Reach h b' c → h'[c]? = h[c]?) → ShowsKids h' as (ks.set j k')
  | _, _, _, .nil, hb, _ => by simp at hb
  | _, _, 0, .gap as ks k, hb, _ => by simp at hb
  | _, _, j + 1, .gap as ks k, hb, hr => by
    simp at hb
    exact .gap _ _ (k.change hb' hb (fun j' b' hj hb2 => hr (j' + 1) b' (by omega) (by simpa using hb2)))
  | _, _, 0, .put a t as ks s k, hb, hr => by
    simp at hb
    subst hb
    refine .put _ _ _ _ hb' (k.frame ?_)
    intro b2 hb2
    obtain ⟨j', hj'⟩ := List.mem_iff_getElem?.1 hb2
    exact hr (j' + 1) b2 (by omega) (by simpa using hj')
  | _, _, j + 1, .put a t as ks s k, hb, hr => by
    simp at hb
    refine .put _ _ _ _ (s.frame (hr 0 a (by omega) (by simp))) (k.change hb' hb ?_)
    intro j' b' hj hb2
    exact hr (j' + 1) b' (by omega) (by simpa using hb2)

theorem update_at {h : Heap} {z i y : Nat} {u : Tree} (hy : Shows h y u) (hr : ¬ Reach h y z) :
    ∀ (p : List Nat) {x : Nat} {t : Tree}, Shows h x t → h.walk x p = some z → (∀ q, h.walk x q = some z → q = p) →
      ∃ t', t.setAt p i u = some t' ∧ Shows (h.put z i y) x t'
  | [], x, t, hx, hw, _ => by
    simp [Heap.walk] at hw
    subst hw
    exact ⟨_, by rw [Tree.setAt.eq_1], hx.put hy hr⟩
  | j :: p, x, t, hx, hw, hu => by
    simp only [Heap.walk, Option.bind_eq_some_iff] at hw
    obtain ⟨b, h1, h2⟩ := hw
    cases hx with
    | node _ c ks e k =>
      have hcj : c.kids[j]? = some (some b) := by
        simp only [Heap.kid, Cell.kid, e, Option.bind_some, Option.join_eq_some_iff] at h1
        exact h1
      obtain ⟨kt, h3, h4⟩ := k.get hcj
      obtain ⟨kt', h5, h6⟩ := update_at (i := i) hy hr p h4 h2 (fun q hq => by
        have := hu (j :: q) (by simp [Heap.walk, h1, hq])
        simpa using this)
      have hxz : x ≠ z := by
        rintro rfl
        have := hu [] rfl
        simp at this
      refine ⟨.node c.ty c.val (ks.set j kt'), by rw [Tree.setAt.eq_2]; simp [h3, h5], ?_⟩
      refine .node x c _ (by rw [Heap.put_ne h i y hxz]; exact e) (k.change h6 hcj ?_)
      intro j' b' hj hb' d r
      refine Heap.put_ne h i y ?_
      rintro rfl
      obtain ⟨q, hq⟩ := reach_walk r
      have hk' : h.kid x j' = some b' := by simp [Heap.kid, Cell.kid, e, hb']
      have := hu (j' :: q) (by simp [Heap.walk, hk', hq])
      simp at this
      exact hj this.1

end Asn1
end Verif
