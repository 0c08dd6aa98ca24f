import Verif.Asn1.Assign

/-!
# Types with nothing in common

`Ty.apart n t u`: no element is accepted by both types, as far as `n` levels of nesting show.
-/

namespace Verif
namespace Asn1

/-- What may take the first element of a SEQUENCE, with the components that come after it. -/
def Comps.takers : Comps → List (Ty × Comps)
  | .nil => []
  | .cons f t cs => (t, cs) :: (if f.mode.isReq then [] else cs.takers)

/-- The types of the components. -/
def Comps.tys : Comps → List Ty
  | .nil => []
  | .cons _ t cs => t :: cs.tys

/-- The types of the mandatory components. -/
def Comps.needed : Comps → List Ty
  | .nil => []
  | .cons f t cs => if f.mode.isReq then t :: cs.needed else cs.needed

/-- No list of elements is accepted by both SEQUENCEs. -/
def Comps.clash (ap : Ty → Ty → Bool) : Nat → Comps → Comps → Bool
  | 0, _, _ => false
  | n + 1, cs, ds =>
    !(cs.optional && ds.optional) && cs.takers.all (fun p => ds.takers.all (fun q => ap p.1 q.1 || Comps.clash ap n p.2 q.2))

/-- The type without its outermost tag. -/
def Ty.peel (t : Ty) : Ty := t.mapAttrs (fun a => { a with tags := a.tags.dropLast })

/-- The type has an element of its own around another one: an explicit tag. -/
def Ty.wraps : Ty → Bool
  | .prim _ a => decide (2 ≤ a.tags.length)
  | .seq _ a _ => decide (2 ≤ a.tags.length)
  | .of _ a _ => decide (2 ≤ a.tags.length)
  | .choice a _ => decide (1 ≤ a.tags.length)
  | .bad _ => false

/-- A SEQUENCE or SET without any elements is refused. -/
def refusesEmpty (s : Bool) (a : Attrs) (cs : Comps) : Bool :=
  match (if s then decSet cs [] else decComps cs []) with
  | none => true
  | some vs => cs.noOpen && !a.spec.ok (.mapping (presentNames cs vs).length (presentNames cs vs))

/-- Elements with the outermost tags of both types; `ap` compares the types of what is inside. -/
def Ty.apartWithin (ap : Ty → Ty → Bool) : Ty → Ty → Bool
  | .prim _ _, .seq _ _ _ => true
  | .prim _ _, .of _ _ _ => true
  | .seq _ _ _, .prim _ _ => true
  | .of _ _ _, .prim _ _ => true
  | .seq s _ cs, .seq s' _ ds =>
    (!s && !s' && Comps.clash ap 64 cs ds) || cs.needed.any (fun c => ds.tys.all (fun d => ap c d)) ||
      ds.needed.any (fun d => cs.tys.all (fun c => ap c d))
  | .seq s a cs, .of _ _ t => cs.needed.any (fun c => ap c t) || (cs.tys.all (fun c => ap c t) && refusesEmpty s a cs)
  | .of _ _ t, .seq s a ds => ds.needed.any (fun d => ap t d) || (ds.tys.all (fun d => ap t d) && refusesEmpty s a ds)
  | _, _ => false

/-- The one type wraps an element in a tag, the other one does not; `u` is the type of the element. -/
def Ty.inside (ap : Ty → Bool) : Ty → Bool
  | .seq _ _ cs => cs.tys.all ap
  | .of _ _ t => ap t
  | _ => false

/-- The alternatives of a CHOICE without a tag. -/
def Ty.alts : Ty → Option Comps
  | .choice a cs => if a.tags.isEmpty then some cs else none
  | _ => none

/-- No element is accepted by both types. -/
def Ty.apart : Nat → Ty → Ty → Bool
  | 0, _, _ => false
  | n + 1, t, u =>
    match t.alts, u.alts with
    | some cs, _ => cs.tys.all (fun t => Ty.apart n t u)
    | none, some ds => ds.tys.all (fun u => Ty.apart n t u)
    | none, none =>
      if t.anyLike || u.anyLike then false
      else match t.tags.getLast?, u.tags.getLast? with
        | some a, some b =>
          if a.same b then
            if t.wraps && u.wraps then Ty.apart n t.peel u.peel
            else if t.wraps then u.inside (fun d => Ty.apart n t.peel d)
            else if u.wraps then t.inside (fun c => Ty.apart n c u.peel)
            else Ty.apartWithin (Ty.apart n) t u
          else true
        | _, _ => true

/-! ## Lists of elements -/

theorem takers_of : ∀ (cs : Comps) (x : TLV) (xs : List TLV), decComps cs (x :: xs) ≠ none →
    ∃ p ∈ cs.takers, decT p.1 x ≠ none ∧ decComps p.2 xs ≠ none
  | .nil, x, xs, h => by simp [decComps] at h
  | .cons f t cs, x, xs, h => by
    rw [decComps] at h
    split at h
    · split at h
      · rename_i v vs h1 h2
        exact ⟨(t, cs), by simp [Comps.takers], by simp [h1], by simp [h2]⟩
      · simp at h
    · rename_i hc
      split at h
      · rename_i v vs h1 h2
        obtain ⟨p, hp, h3⟩ := takers_of cs x xs (by simp [h2])
        refine ⟨p, ?_, h3⟩
        cases hr : f.mode.isReq with
        | true => simp [hr] at hc
        | false => simp [Comps.takers, hr, hp]
      · simp at h

theorem optional_of : ∀ (cs : Comps), decComps cs [] ≠ none → cs.optional = true
  | .nil, _ => rfl
  | .cons f t cs, h => by
    rw [decComps] at h
    split at h
    · rename_i v vs h1 h2
      have := optional_of cs (by simp [h2])
      cases hm : f.mode <;> simp_all [Comps.optional, Mode.isReq, Mode.missing]
    · simp at h

theorem clash_sound (ap : Ty → Ty → Bool) (hap : ∀ t u, ap t u = true → ∀ x, decT t x ≠ none → decT u x ≠ none → False) :
    ∀ (n : Nat) (cs ds : Comps), Comps.clash ap n cs ds = true → ∀ xs, decComps cs xs ≠ none → decComps ds xs ≠ none → False
  | 0, cs, ds, h, _, _, _ => by simp [Comps.clash] at h
  | n + 1, cs, ds, h, [], h1, h2 => by
    simp [Comps.clash, optional_of cs h1, optional_of ds h2] at h
  | n + 1, cs, ds, h, x :: xs, h1, h2 => by
    simp only [Comps.clash, Bool.and_eq_true, List.all_eq_true, Bool.or_eq_true] at h
    obtain ⟨p, hp, p1, p2⟩ := takers_of cs x xs h1
    obtain ⟨q, hq, q1, q2⟩ := takers_of ds x xs h2
    rcases h.2 p hp q hq with h3 | h3
    · exact hap _ _ h3 x p1 q1
    · exact clash_sound ap hap n _ _ h3 xs p2 q2

/-- Mandatory components have their element, and every element is one of a component. -/
def Comps.Takes (cs : Comps) (xs : List TLV) : Prop :=
  (∀ c ∈ cs.needed, ∃ x ∈ xs, decT c x ≠ none) ∧ ∀ x ∈ xs, ∃ c ∈ cs.tys, decT c x ≠ none

theorem decComps_takes : ∀ (cs : Comps) (xs : List TLV), decComps cs xs ≠ none → cs.Takes xs
  | .nil, [], _ => ⟨by simp [Comps.needed], by simp⟩
  | .nil, _ :: _, h => by simp [decComps] at h
  | .cons f t cs, [], h => by
    rw [decComps] at h
    split at h
    · rename_i v vs h1 h2
      obtain ⟨g1, g2⟩ := decComps_takes cs [] (by simp [h2])
      have hr : f.mode.isReq = false := by cases hm : f.mode <;> simp_all [Mode.isReq, Mode.missing]
      exact ⟨by simpa [Comps.needed, hr] using g1, by simp⟩
    · simp at h
  | .cons f t cs, x :: xs, h => by
    rw [decComps] at h
    split at h
    · split at h
      · rename_i v vs h1 h2
        obtain ⟨g1, g2⟩ := decComps_takes cs xs (by simp [h2])
        constructor
        · intro c hc
          have : c = t ∨ c ∈ cs.needed := by
            simp only [Comps.needed] at hc
            split at hc
            · simpa using hc
            · exact .inr hc
          rcases this with rfl | hc
          · exact ⟨x, by simp, by simp [h1]⟩
          · obtain ⟨y, hy, h3⟩ := g1 c hc
            exact ⟨y, by simp [hy], h3⟩
        · intro y hy
          rcases List.mem_cons.1 hy with rfl | hy
          · exact ⟨t, by simp [Comps.tys], by simp [h1]⟩
          · obtain ⟨c, hc, h3⟩ := g2 y hy
            exact ⟨c, by simp [Comps.tys, hc], h3⟩
      · simp at h
    · rename_i hn
      split at h
      · rename_i v vs h1 h2
        obtain ⟨g1, g2⟩ := decComps_takes cs (x :: xs) (by simp [h2])
        have hr : f.mode.isReq = false := by
          cases hr : f.mode.isReq with
          | true => simp [hr] at hn
          | false => rfl
        refine ⟨by simpa [Comps.needed, hr] using g1, fun y hy => ?_⟩
        obtain ⟨c, hc, h3⟩ := g2 y hy
        exact ⟨c, by simp [Comps.tys, hc], h3⟩
      · simp at h

theorem mapOpt_all {α β : Type} (f : α → Option β) : ∀ (xs : List α) (ys : List β), mapOpt f xs = some ys → ∀ x ∈ xs, f x ≠ none
  | [], _, _, x, hx => by simp at hx
  | y :: xs, ys, h, x, hx => by
    rw [mapOpt] at h
    split at h
    · rename_i v vs h1 h2
      rcases List.mem_cons.1 hx with rfl | hx
      · simp [h1]
      · exact mapOpt_all f xs vs h2 x hx
    · simp at h

theorem decSet_needed : ∀ (cs : Comps) (xs : List TLV), decSet cs xs ≠ none → ∀ c ∈ cs.needed, ∃ x ∈ xs, decT c x ≠ none
  | .nil, _, _, c, hc => by simp [Comps.needed] at hc
  | .cons f t cs, xs, h, c, hc => by
    rw [decSet] at h
    split at h
    · rename_i ws vs h1 h2
      have hc' : (f.mode.isReq = true ∧ c = t) ∨ c ∈ cs.needed := by
        simp only [Comps.needed] at hc
        split at hc
        · rename_i hr
          rcases List.mem_cons.1 hc with hc | hc
          · exact .inl ⟨hr, hc⟩
          · exact .inr hc
        · exact .inr hc
      rcases hc' with ⟨hr, rfl⟩ | hc'
      · have hm : f.mode.missing = none := by cases hm : f.mode <;> simp_all [Mode.isReq, Mode.missing]
        rw [hm] at h
        cases hf : xs.filter c.matches with
        | nil => rw [hf] at h1; simp only [mapOpt, Option.some.injEq] at h1; simp [← h1] at h
        | cons x ys =>
          have hx : x ∈ xs.filter c.matches := by simp [hf]
          exact ⟨x, (List.mem_filter.1 hx).1, mapOpt_all _ _ _ h1 x hx⟩
      · exact decSet_needed cs xs (by simp [h2]) c hc'
    · simp at h

theorem decSet_tys : ∀ (cs : Comps) (xs : List TLV), decSet cs xs ≠ none → ∀ x ∈ xs, cs.matches x = true →
    ∃ c ∈ cs.tys, decT c x ≠ none
  | .nil, _, _, x, _, hm => by simp [Comps.matches] at hm
  | .cons f t cs, xs, h, x, hx, hm => by
    rw [decSet] at h
    split at h
    · rename_i ws vs h1 h2
      rw [Comps.matches, Bool.or_eq_true] at hm
      rcases hm with hm | hm
      · exact ⟨t, by simp [Comps.tys], mapOpt_all _ _ _ h1 x (List.mem_filter.2 ⟨hx, hm⟩)⟩
      · obtain ⟨c, hc, h3⟩ := decSet_tys cs xs (by simp [h2]) x hx hm
        exact ⟨c, by simp [Comps.tys, hc], h3⟩
    · simp at h

/-! ## One element -/

theorem seq_takes (s : Bool) (a : Attrs) (cs : Comps) (x : TLV) (h : decT (.seq s a cs) x ≠ none) :
    ∃ xs, innerItems a x = some xs ∧ cs.Takes xs ∧ (s = false → decComps cs xs ≠ none) := by
  rw [decT] at h
  split at h
  · simp at h
  · rename_i xs hi
    refine ⟨xs, hi, ?_⟩
    split at h
    · simp at h
    · rename_i vs hv
      cases s with
      | false =>
        have : decComps cs xs = some vs := by simpa using hv
        exact ⟨decComps_takes cs xs (by simp [this]), fun _ => by simp [this]⟩
      | true =>
        simp only [if_true] at hv
        split at hv
        · rename_i hall
          have hs : decSet cs xs ≠ none := by simp [hv]
          exact ⟨⟨decSet_needed cs xs hs, fun x hx => decSet_tys cs xs hs x hx (List.all_eq_true.1 hall x hx)⟩, by simp⟩
        · simp at hv

theorem refusesEmpty_sound (s : Bool) (a : Attrs) (cs : Comps) (x : TLV) (hi : innerItems a x = some [])
    (h : refusesEmpty s a cs = true) : decT (.seq s a cs) x = none := by
  rw [decT, hi]
  rw [refusesEmpty] at h
  simp only [List.all_nil, if_true]
  split at h
  · rename_i hn
    rw [hn]
  · rename_i vs hv
    rw [hv]
    simp only [Bool.and_eq_true, Bool.not_eq_true'] at h
    simp [h.1, h.2]

theorem of_takes (s : Bool) (a : Attrs) (t : Ty) (x : TLV) (h : decT (.of s a t) x ≠ none) :
    ∃ xs, innerItems a x = some xs ∧ ∀ y ∈ xs, decT t y ≠ none := by
  rw [decT] at h
  split at h
  · simp at h
  · rename_i xs hi
    split at h
    · simp at h
    · rename_i vs hv
      exact ⟨xs, hi, mapOpt_all _ _ _ hv⟩

theorem prim_takes (k : Prim) (a : Attrs) (x : TLV) (hk : (k == .any) = false) (h : decT (.prim k a) x ≠ none) :
    ∃ y, unwrap a.tags.reverse x = some y ∧ y.constructed = false := by
  rw [decT, decPrimT] at h
  simp only [hk, Bool.false_eq_true, if_false] at h
  split at h
  · simp at h
  · rename_i y hy
    refine ⟨y, hy, ?_⟩
    cases hc : y.constructed with
    | false => rfl
    | true => simp [hc] at h

theorem choice_takes (a : Attrs) (cs : Comps) (x : TLV) (ha : a.tags ≠ []) (h : decT (.choice a cs) x ≠ none) :
    ∃ y z r, unwrap a.tags.reverse x = some y ∧ readTLV y.content = some (z, r) ∧ decAlt cs 0 z ≠ none := by
  rw [decT] at h
  split at h
  · contradiction
  · split at h
    · simp at h
    · rename_i y hy
      split at h
      · simp at h
      · rename_i z r hz
        exact ⟨y, z, r, hy, hz, h⟩

theorem alt_takes : ∀ (cs : Comps) (i : Nat) (x : TLV), decAlt cs i x ≠ none → ∃ c ∈ cs.tys, decT c x ≠ none
  | .nil, _, _, h => by simp [decAlt] at h
  | .cons f t cs, i, x, h => by
    rw [decAlt] at h
    split at h
    · refine ⟨t, by simp [Comps.tys], ?_⟩
      intro hn
      simp [hn] at h
    · obtain ⟨c, hc, h1⟩ := alt_takes cs (i + 1) x h
      exact ⟨c, by simp [Comps.tys, hc], h1⟩

theorem alts_takes (t : Ty) (cs : Comps) (ht : t.alts = some cs) (x : TLV) (h : decT t x ≠ none) : ∃ c ∈ cs.tys, decT c x ≠ none := by
  cases t with
  | choice a ds =>
    simp only [Ty.alts] at ht
    split at ht
    · rename_i he
      simp only [Option.some.injEq] at ht
      subst ht
      rw [decT] at h
      simp only [List.isEmpty_iff] at he
      rw [he] at h
      exact alt_takes ds 0 x h
    · simp at ht
  | _ => simp [Ty.alts] at ht

theorem unwrap_head (ts : List Tag) (x y : TLV) (h : unwrap ts x = some y) : ∃ t, ts.head? = some t ∧ x.has t = true := by
  cases ts with
  | nil => simp [unwrap] at h
  | cons t ts =>
    refine ⟨t, rfl, ?_⟩
    cases ts with
    | nil =>
      simp only [unwrap] at h
      split at h
      · assumption
      · simp at h
    | cons t' ts =>
      simp only [unwrap] at h
      split at h
      · rename_i hc
        simp only [Bool.and_eq_true] at hc
        exact hc.1.1
      · simp at h

/-- The element has the outermost tag of the type. -/
theorem has_outer (t : Ty) (x : TLV) (h1 : t.alts = none) (h2 : t.anyLike = false) (h : decT t x ≠ none) :
    ∃ a, t.tags.getLast? = some a ∧ x.has a = true := by
  have key : ∀ a : Attrs, ∀ y, unwrap a.tags.reverse x = some y → ∃ b, a.tags.getLast? = some b ∧ x.has b = true := by
    intro a y hy
    obtain ⟨b, hb, hx⟩ := unwrap_head _ _ _ hy
    exact ⟨b, by rwa [List.head?_reverse] at hb, hx⟩
  have inner : ∀ a xs, innerItems a x = some xs → ∃ y, unwrap a.tags.reverse x = some y := by
    intro a xs hi
    rw [innerItems] at hi
    split at hi
    · simp at hi
    · exact ⟨_, by assumption⟩
  cases t with
  | prim k a =>
    obtain ⟨y, hy, _⟩ := prim_takes k a x (by cases k <;> simp_all [Ty.anyLike]) h
    exact key a y hy
  | seq s a cs =>
    obtain ⟨xs, hi, _⟩ := seq_takes s a cs x h
    obtain ⟨y, hy⟩ := inner a xs hi
    exact key a y hy
  | of s a t =>
    obtain ⟨xs, hi, _⟩ := of_takes s a t x h
    obtain ⟨y, hy⟩ := inner a xs hi
    exact key a y hy
  | choice a cs =>
    obtain ⟨y, z, r, hy, _⟩ := choice_takes a cs x (by
      intro he
      simp [Ty.alts, he] at h1) h
    exact key a y hy
  | bad w => simp [decT] at h

theorem unwrap_peel (ts : List Tag) (x z : TLV) (hl : 2 ≤ ts.length) (h : unwrap ts.reverse x = some z) :
    ∃ y r, readTLV x.content = some (y, r) ∧ unwrap ts.dropLast.reverse y = some z := by
  rw [← List.tail_reverse]
  have hr : 2 ≤ ts.reverse.length := by simpa using hl
  revert h hr
  cases ts.reverse with
  | nil => intro _ hr; simp at hr
  | cons t ts =>
    cases ts with
    | nil => intro _ hr; simp at hr
    | cons t' ts =>
      intro h _
      rw [unwrap] at h
      split at h
      · split at h
        · rename_i y r hy
          exact ⟨y, r, hy, h⟩
        · simp at h
      · simp at h

theorem inner_unwrap (a : Attrs) (x : TLV) (xs : List TLV) (h : innerItems a x = some xs) :
    ∃ y, unwrap a.tags.reverse x = some y ∧ y.constructed = true ∧ items y.content = some xs := by
  rw [innerItems] at h
  split at h
  · simp at h
  · rename_i y hy
    split at h
    · exact ⟨y, hy, by assumption, h⟩
    · simp at h

/-- What is inside an explicit tag. -/
theorem wraps_takes (t : Ty) (x : TLV) (h2 : t.anyLike = false) (hw : t.wraps = true) (h : decT t x ≠ none) :
    ∃ y r, readTLV x.content = some (y, r) ∧ decT t.peel y ≠ none := by
  cases t with
  | prim k a =>
    have hk : (k == .any) = false := by cases k <;> simp_all [Ty.anyLike]
    obtain ⟨z, hz, _⟩ := prim_takes k a x hk h
    obtain ⟨y, r, hy, hu⟩ := unwrap_peel a.tags x z (by simpa [Ty.wraps] using hw) hz
    refine ⟨y, r, hy, ?_⟩
    simpa only [Ty.peel, Ty.mapAttrs, decT, decPrimT, hk, hz, hu, Bool.false_eq_true, if_false] using h
  | seq s a cs =>
    obtain ⟨xs, hi, _⟩ := seq_takes s a cs x h
    obtain ⟨z, hz, hc, _⟩ := inner_unwrap a x xs hi
    obtain ⟨y, r, hy, hu⟩ := unwrap_peel a.tags x z (by simpa [Ty.wraps] using hw) hz
    refine ⟨y, r, hy, ?_⟩
    simpa only [Ty.peel, Ty.mapAttrs, decT, innerItems, hz, hu] using h
  | of s a t =>
    obtain ⟨xs, hi, _⟩ := of_takes s a t x h
    obtain ⟨z, hz, hc, _⟩ := inner_unwrap a x xs hi
    obtain ⟨y, r, hy, hu⟩ := unwrap_peel a.tags x z (by simpa [Ty.wraps] using hw) hz
    refine ⟨y, r, hy, ?_⟩
    simpa only [Ty.peel, Ty.mapAttrs, decT, innerItems, hz, hu] using h
  | choice a cs =>
    have hl : 1 ≤ a.tags.length := by simpa [Ty.wraps] using hw
    obtain ⟨z, w, r, hz, hr, hd⟩ := choice_takes a cs x (by intro he; simp [he] at hl) h
    by_cases h1 : 2 ≤ a.tags.length
    · obtain ⟨y, r', hy, hu⟩ := unwrap_peel a.tags x z h1 hz
      refine ⟨y, r', hy, ?_⟩
      simp only [Ty.peel, Ty.mapAttrs, decT]
      split
      · rename_i he
        have := congrArg List.length he
        simp at this
        omega
      · simp only [hu, hr]
        exact hd
    · obtain ⟨b, hb⟩ := List.length_eq_one_iff.1 (show a.tags.length = 1 by omega)
      rw [hb] at hz
      simp only [List.reverse_singleton, unwrap] at hz
      split at hz
      · simp only [Option.some.injEq] at hz
        subst hz
        refine ⟨w, r, hr, ?_⟩
        simp only [Ty.peel, Ty.mapAttrs, decT, hb, List.dropLast_singleton]
        exact hd
      · simp at hz
  | bad w => simp [Ty.wraps] at hw

theorem items_head (b : Bytes) (y : TLV) (r : Bytes) (xs : List TLV) (h1 : readTLV b = some (y, r)) (h2 : items b = some xs) :
    y ∈ xs := by
  cases b with
  | nil => have : readTLV [] = none := by decide
           simp [this] at h1
  | cons c b =>
    simp only [items, List.length_cons, parseTLVs, h1] at h2
    split at h2
    · simp at h2
    · simp only [Option.some.injEq] at h2
      simp [← h2]

/-- With one tag the contents are those of the element. -/
theorem inner_single (a : Attrs) (x : TLV) (xs : List TLV) (hl : ¬ 2 ≤ a.tags.length) (h : innerItems a x = some xs) :
    x.constructed = true ∧ items x.content = some xs := by
  obtain ⟨y, hy, h1, h2⟩ := inner_unwrap a x xs h
  have : unwrap a.tags.reverse x = some x := by
    cases ht : a.tags with
    | nil => simp [ht, unwrap] at hy
    | cons b l =>
      cases l with
      | nil =>
        simp only [ht, List.reverse_singleton, unwrap] at hy ⊢
        split at hy
        · rename_i hb; simp [hb]
        · simp at hy
      | cons _ _ => simp [ht] at hl
  rw [this, Option.some.injEq] at hy
  subst hy
  exact ⟨h1, h2⟩

theorem prim_single (k : Prim) (a : Attrs) (x : TLV) (hk : (k == .any) = false) (hl : ¬ 2 ≤ a.tags.length)
    (h : decT (.prim k a) x ≠ none) : x.constructed = false := by
  obtain ⟨y, hy, h1⟩ := prim_takes k a x hk h
  cases ht : a.tags with
  | nil => simp [ht, unwrap] at hy
  | cons b l =>
    cases l with
    | nil =>
      simp only [ht, List.reverse_singleton, unwrap] at hy
      split at hy
      · simp only [Option.some.injEq] at hy
        rw [hy]
        exact h1
      · simp at hy
    | cons _ _ => simp [ht] at hl

/-! ## Soundness -/

theorem inside_sound (ap : Ty → Bool) (u : Ty) (h : u.inside ap = true) (hu : u.wraps = false) (x y : TLV) (r : Bytes)
    (hy : readTLV x.content = some (y, r)) (hx : decT u x ≠ none) : ∃ d, ap d = true ∧ decT d y ≠ none := by
  cases u with
  | seq s a cs =>
    obtain ⟨xs, hi, ⟨_, ht⟩, _⟩ := seq_takes s a cs x hx
    obtain ⟨_, hi⟩ := inner_single a x xs (by simpa [Ty.wraps] using hu) hi
    obtain ⟨d, hd, h1⟩ := ht y (items_head _ _ _ _ hy hi)
    exact ⟨d, List.all_eq_true.1 h d hd, h1⟩
  | of s a t =>
    obtain ⟨xs, hi, ht⟩ := of_takes s a t x hx
    obtain ⟨_, hi⟩ := inner_single a x xs (by simpa [Ty.wraps] using hu) hi
    exact ⟨t, h, ht y (items_head _ _ _ _ hy hi)⟩
  | _ => simp [Ty.inside] at h

theorem apartWithin_sound (ap : Ty → Ty → Bool) (hap : ∀ t u, ap t u = true → ∀ x, decT t x ≠ none → decT u x ≠ none → False)
    (t u : Ty) (h : Ty.apartWithin ap t u = true) (ht : t.wraps = false) (hu : u.wraps = false) (at' : t.anyLike = false)
    (au : u.anyLike = false) (x : TLV) (h1 : decT t x ≠ none) (h2 : decT u x ≠ none) : False := by
  have seq : ∀ s a cs, (Ty.seq s a cs).wraps = false → decT (.seq s a cs) x ≠ none → ∃ xs, x.constructed = true ∧
      items x.content = some xs ∧ cs.Takes xs ∧ (s = false → decComps cs xs ≠ none) ∧ innerItems a x = some xs := by
    intro s a cs hw hd
    obtain ⟨xs, hi, g⟩ := seq_takes s a cs x hd
    obtain ⟨g1, g2⟩ := inner_single a x xs (by simpa [Ty.wraps] using hw) hi
    exact ⟨xs, g1, g2, g.1, g.2, hi⟩
  have of : ∀ s a c, (Ty.of s a c).wraps = false → decT (.of s a c) x ≠ none → ∃ xs, x.constructed = true ∧
      items x.content = some xs ∧ ∀ y ∈ xs, decT c y ≠ none := by
    intro s a c hw hd
    obtain ⟨xs, hi, g⟩ := of_takes s a c x hd
    obtain ⟨g1, g2⟩ := inner_single a x xs (by simpa [Ty.wraps] using hw) hi
    exact ⟨xs, g1, g2, g⟩
  have prim : ∀ k a, (Ty.prim k a).wraps = false → (Ty.prim k a).anyLike = false → decT (.prim k a) x ≠ none → x.constructed = false := by
    intro k a hw ha hd
    exact prim_single k a x (by cases k <;> simp_all [Ty.anyLike]) (by simpa [Ty.wraps] using hw) hd
  cases t with
  | prim k a =>
    have hp := prim k a ht at' h1
    cases u with
    | seq s b ds => obtain ⟨_, g, _⟩ := seq s b ds hu h2; simp [hp] at g
    | of s b d => obtain ⟨_, g, _⟩ := of s b d hu h2; simp [hp] at g
    | _ => simp [Ty.apartWithin] at h
  | seq s a cs =>
    obtain ⟨xs, g1, g2, g3, g4, g5⟩ := seq s a cs ht h1
    cases u with
    | prim k b => have hp := prim k b hu au h2; simp [hp] at g1
    | seq s' b ds =>
      obtain ⟨ys, _, k2, k3, k4, _⟩ := seq s' b ds hu h2
      have : ys = xs := by simpa [g2] using k2.symm
      subst this
      simp only [Ty.apartWithin, Bool.or_eq_true, Bool.and_eq_true, Bool.not_eq_true', List.any_eq_true, List.all_eq_true] at h
      rcases h with (⟨⟨e1, e2⟩, h⟩ | ⟨c, hc, h⟩) | ⟨d, hd, h⟩
      · exact clash_sound ap hap 64 cs ds h ys (g4 e1) (k4 e2)
      · obtain ⟨y, hy, e⟩ := g3.1 c hc
        obtain ⟨d, hd, e'⟩ := k3.2 y hy
        exact hap c d (h d hd) y e e'
      · obtain ⟨y, hy, e⟩ := k3.1 d hd
        obtain ⟨c, hc, e'⟩ := g3.2 y hy
        exact hap c d (h c hc) y e' e
    | of s' b d =>
      obtain ⟨ys, _, k2, k3⟩ := of s' b d hu h2
      have : ys = xs := by simpa [g2] using k2.symm
      subst this
      simp only [Ty.apartWithin, Bool.or_eq_true, Bool.and_eq_true, List.any_eq_true, List.all_eq_true] at h
      rcases h with ⟨c, hc, h⟩ | ⟨h, he⟩
      · obtain ⟨y, hy, e⟩ := g3.1 c hc
        exact hap c d h y e (k3 y hy)
      · cases ys with
        | nil => exact h1 (refusesEmpty_sound s a cs x g5 he)
        | cons y ys =>
          obtain ⟨c, hc, e⟩ := g3.2 y (by simp)
          exact hap c d (h c hc) y e (k3 y (by simp))
    | _ => simp [Ty.apartWithin] at h
  | of s a c =>
    obtain ⟨xs, g1, g2, g3⟩ := of s a c ht h1
    cases u with
    | prim k b => have hp := prim k b hu au h2; simp [hp] at g1
    | seq s' b ds =>
      obtain ⟨ys, _, k2, k3, _, k5⟩ := seq s' b ds hu h2
      have : ys = xs := by simpa [g2] using k2.symm
      subst this
      simp only [Ty.apartWithin, Bool.or_eq_true, Bool.and_eq_true, List.any_eq_true, List.all_eq_true] at h
      rcases h with ⟨d, hd, h⟩ | ⟨h, he⟩
      · obtain ⟨y, hy, e⟩ := k3.1 d hd
        exact hap c d h y (g3 y hy) e
      · cases ys with
        | nil => exact h2 (refusesEmpty_sound s' b ds x k5 he)
        | cons y ys =>
          obtain ⟨d, hd, e⟩ := k3.2 y (by simp)
          exact hap c d (h d hd) y (g3 y (by simp)) e
    | _ => simp [Ty.apartWithin] at h
  | _ => cases u <;> simp [Ty.apartWithin] at h

/-- No element is accepted by both. -/
theorem apart_sound : ∀ (n : Nat) (t u : Ty), Ty.apart n t u = true → ∀ x, decT t x ≠ none → decT u x ≠ none → False
  | 0, t, u, h, _, _, _ => by simp [Ty.apart] at h
  | n + 1, t, u, h, x, h1, h2 => by
    have ih := apart_sound n
    rw [Ty.apart] at h
    split at h
    · rename_i cs e
      obtain ⟨c, hc, g⟩ := alts_takes t cs e x h1
      exact ih c u (List.all_eq_true.1 h c hc) x g h2
    · rename_i ds e1 e2
      obtain ⟨d, hd, g⟩ := alts_takes u ds e2 x h2
      exact ih t d (List.all_eq_true.1 h d hd) x h1 g
    · rename_i e1 e2
      split at h
      · simp at h
      · rename_i hany
        simp only [Bool.or_eq_true, not_or, Bool.not_eq_true] at hany
        obtain ⟨a, ha, xa⟩ := has_outer t x e1 hany.1 h1
        obtain ⟨b, hb, xb⟩ := has_outer u x e2 hany.2 h2
        rw [ha, hb] at h
        simp only [] at h
        split at h
        · split at h
          · rename_i hw
            simp only [Bool.and_eq_true] at hw
            obtain ⟨y, r, hy, g1⟩ := wraps_takes t x hany.1 hw.1 h1
            obtain ⟨y', r', hy', g2⟩ := wraps_takes u x hany.2 hw.2 h2
            rw [hy] at hy'
            simp only [Option.some.injEq, Prod.mk.injEq] at hy'
            rw [← hy'.1] at g2
            exact ih _ _ h y g1 g2
          · rename_i hw
            split at h
            · rename_i hw1
              have hw2 : u.wraps = false := by simpa [hw1] using hw
              obtain ⟨y, r, hy, g1⟩ := wraps_takes t x hany.1 hw1 h1
              obtain ⟨d, hd, g2⟩ := inside_sound _ u h hw2 x y r hy h2
              exact ih _ _ hd y g1 g2
            · rename_i hw1
              split at h
              · rename_i hw2
                obtain ⟨y, r, hy, g1⟩ := wraps_takes u x hany.2 hw2 h2
                obtain ⟨c, hc, g2⟩ := inside_sound _ t h (by simpa using hw1) x y r hy h1
                exact ih _ _ hc y g2 g1
              · rename_i hw2
                exact apartWithin_sound _ ih t u h (by simpa using hw1) (by simpa using hw2) hany.1 hany.2 x h1 h2
        · rename_i hs
          apply hs
          simp only [TLV.has, Bool.and_eq_true, beq_iff_eq] at xa xb
          simp [Tag.same, ← xa.1, ← xb.1, ← xa.2, ← xb.2]

end Asn1
end Verif
