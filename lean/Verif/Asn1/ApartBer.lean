import Verif.Asn1.Apart
import Verif.Asn1.BerElt

/-!
# Types with nothing in common, in BER

As `Verif.Asn1.Apart`, for the BER decoder: lengths may be indefinite, and OCTET STRINGs and BIT STRINGs may come in pieces,
so that these are not told from SEQUENCEs by the form of the element.
-/

namespace Verif
namespace Asn1
namespace BerApart

/-- Strings that may come in pieces. -/
def pieces : Prim → Bool
  | .octetString => true
  | .bitString => true
  | _ => false

/-- A SEQUENCE or SET without any elements is refused. -/
def refusesEmpty (s : Bool) (a : Attrs) (cs : Comps) : Bool :=
  match (if s then bdecSet cs [] else bdecComps cs []) with
  | none => true
  | some vs => cs.noOpen && !a.spec.ok (.mapping (presentNames cs vs).length (presentNames cs vs))

/-- Elements with the outermost tags of both types; `ap` compares the types of what is inside. -/
def within (ap : Ty → Ty → Bool) : Ty → Ty → Bool
  | .prim k _, .seq _ _ _ => !pieces k
  | .prim k _, .of _ _ _ => !pieces k
  | .seq _ _ _, .prim k _ => !pieces k
  | .of _ _ _, .prim k _ => !pieces k
  | .seq s _ cs, .seq s' _ ds =>
    (!s && !s' && Comps.clash ap 64 cs ds) || cs.needed.any (fun c => ds.tys.all (fun d => ap c d)) ||
      ds.needed.any (fun d => cs.tys.all (fun c => ap c d))
  | .seq s a cs, .of _ _ t => cs.needed.any (fun c => ap c t) || (cs.tys.all (fun c => ap c t) && refusesEmpty s a cs)
  | .of _ _ t, .seq s a ds => ds.needed.any (fun d => ap t d) || (ds.tys.all (fun d => ap t d) && refusesEmpty s a ds)
  | _, _ => false

/-- No element is accepted by both types. -/
def apart : Nat → Ty → Ty → Bool
  | 0, _, _ => false
  | n + 1, t, u =>
    match t.alts, u.alts with
    | some cs, _ => cs.tys.all (fun t => apart n t u)
    | none, some ds => ds.tys.all (fun u => apart n t u)
    | none, none =>
      if t.anyLike || u.anyLike then false
      else match t.tags.getLast?, u.tags.getLast? with
        | some a, some b =>
          if a.same b then
            if t.wraps && u.wraps then apart n t.peel u.peel
            else if t.wraps then u.inside (fun d => apart n t.peel d)
            else if u.wraps then t.inside (fun c => apart n c u.peel)
            else within (apart n) t u
          else true
        | _, _ => true

/-! ## Lists of elements -/

theorem takers_of : ∀ (cs : Comps) (x : Elt) (xs : List Elt), bdecComps cs (x :: xs) ≠ none →
    ∃ p ∈ cs.takers, bdecT p.1 x ≠ none ∧ bdecComps p.2 xs ≠ none
  | .nil, x, xs, h => by simp [bdecComps] at h
  | .cons f t cs, x, xs, h => by
    rw [bdecComps] at h
    split at h
    · split at h
      · rename_i v vs h1 h2
        exact ⟨(t, cs), by simp [Comps.takers], by simp [h1], by simp [h2]⟩
      · simp at h
    · rename_i hc
      split at h
      · rename_i v vs h1 h2
        obtain ⟨p, hp, h3⟩ := takers_of cs x xs (by simp [h2])
        refine ⟨p, ?_, h3⟩
        cases hr : f.mode.isReq with
        | true => simp [hr] at hc
        | false => simp [Comps.takers, hr, hp]
      · simp at h

theorem optional_of : ∀ (cs : Comps), bdecComps cs [] ≠ none → cs.optional = true
  | .nil, _ => rfl
  | .cons f t cs, h => by
    rw [bdecComps] at h
    split at h
    · rename_i v vs h1 h2
      have := optional_of cs (by simp [h2])
      cases hm : f.mode <;> simp_all [Comps.optional, Mode.isReq, Mode.missing]
    · simp at h

theorem clash_sound (ap : Ty → Ty → Bool) (hap : ∀ t u, ap t u = true → ∀ x, bdecT t x ≠ none → bdecT u x ≠ none → False) :
    ∀ (n : Nat) (cs ds : Comps), Comps.clash ap n cs ds = true → ∀ xs, bdecComps cs xs ≠ none → bdecComps ds xs ≠ none → False
  | 0, cs, ds, h, _, _, _ => by simp [Comps.clash] at h
  | n + 1, cs, ds, h, [], h1, h2 => by
    simp [Comps.clash, optional_of cs h1, optional_of ds h2] at h
  | n + 1, cs, ds, h, x :: xs, h1, h2 => by
    simp only [Comps.clash, Bool.and_eq_true, List.all_eq_true, Bool.or_eq_true] at h
    obtain ⟨p, hp, p1, p2⟩ := takers_of cs x xs h1
    obtain ⟨q, hq, q1, q2⟩ := takers_of ds x xs h2
    rcases h.2 p hp q hq with h3 | h3
    · exact hap _ _ h3 x p1 q1
    · exact clash_sound ap hap n _ _ h3 xs p2 q2

/-- Mandatory components have their element, and every element is one of a component. -/
def Takes (cs : Comps) (xs : List Elt) : Prop :=
  (∀ c ∈ cs.needed, ∃ x ∈ xs, bdecT c x ≠ none) ∧ ∀ x ∈ xs, ∃ c ∈ cs.tys, bdecT c x ≠ none

theorem decComps_takes : ∀ (cs : Comps) (xs : List Elt), bdecComps cs xs ≠ none → Takes cs xs
  | .nil, [], _ => ⟨by simp [Comps.needed], by simp⟩
  | .nil, _ :: _, h => by simp [bdecComps] at h
  | .cons f t cs, [], h => by
    rw [bdecComps] at h
    split at h
    · rename_i v vs h1 h2
      obtain ⟨g1, g2⟩ := decComps_takes cs [] (by simp [h2])
      have hr : f.mode.isReq = false := by cases hm : f.mode <;> simp_all [Mode.isReq, Mode.missing]
      exact ⟨by simpa [Comps.needed, hr] using g1, by simp⟩
    · simp at h
  | .cons f t cs, x :: xs, h => by
    rw [bdecComps] at h
    split at h
    · split at h
      · rename_i v vs h1 h2
        obtain ⟨g1, g2⟩ := decComps_takes cs xs (by simp [h2])
        constructor
        · intro c hc
          have : c = t ∨ c ∈ cs.needed := by
            simp only [Comps.needed] at hc
            split at hc
            · simpa using hc
            · exact .inr hc
          rcases this with rfl | hc
          · exact ⟨x, by simp, by simp [h1]⟩
          · obtain ⟨y, hy, h3⟩ := g1 c hc
            exact ⟨y, by simp [hy], h3⟩
        · intro y hy
          rcases List.mem_cons.1 hy with rfl | hy
          · exact ⟨t, by simp [Comps.tys], by simp [h1]⟩
          · obtain ⟨c, hc, h3⟩ := g2 y hy
            exact ⟨c, by simp [Comps.tys, hc], h3⟩
      · simp at h
    · rename_i hn
      split at h
      · rename_i v vs h1 h2
        obtain ⟨g1, g2⟩ := decComps_takes cs (x :: xs) (by simp [h2])
        have hr : f.mode.isReq = false := by
          cases hr : f.mode.isReq with
          | true => simp [hr] at hn
          | false => rfl
        refine ⟨by simpa [Comps.needed, hr] using g1, fun y hy => ?_⟩
        obtain ⟨c, hc, h3⟩ := g2 y hy
        exact ⟨c, by simp [Comps.tys, hc], h3⟩
      · simp at h

theorem decSet_needed : ∀ (cs : Comps) (xs : List Elt), bdecSet cs xs ≠ none → ∀ c ∈ cs.needed, ∃ x ∈ xs, bdecT c x ≠ none
  | .nil, _, _, c, hc => by simp [Comps.needed] at hc
  | .cons f t cs, xs, h, c, hc => by
    rw [bdecSet] at h
    split at h
    · rename_i ws vs h1 h2
      have hc' : (f.mode.isReq = true ∧ c = t) ∨ c ∈ cs.needed := by
        simp only [Comps.needed] at hc
        split at hc
        · rename_i hr
          rcases List.mem_cons.1 hc with hc | hc
          · exact .inl ⟨hr, hc⟩
          · exact .inr hc
        · exact .inr hc
      rcases hc' with ⟨hr, rfl⟩ | hc'
      · have hm : f.mode.missing = none := by cases hm : f.mode <;> simp_all [Mode.isReq, Mode.missing]
        rw [hm] at h
        cases hf : xs.filter (fun x => c.matches x.tlv) with
        | nil => rw [hf] at h1; simp only [mapOpt, Option.some.injEq] at h1; simp [← h1] at h
        | cons x ys =>
          have hx : x ∈ xs.filter (fun x => c.matches x.tlv) := by simp [hf]
          exact ⟨x, (List.mem_filter.1 hx).1, mapOpt_all _ _ _ h1 x hx⟩
      · exact decSet_needed cs xs (by simp [h2]) c hc'
    · simp at h

theorem decSet_tys : ∀ (cs : Comps) (xs : List Elt), bdecSet cs xs ≠ none → ∀ x ∈ xs, cs.matches x.tlv = true →
    ∃ c ∈ cs.tys, bdecT c x ≠ none
  | .nil, _, _, x, _, hm => by simp [Comps.matches] at hm
  | .cons f t cs, xs, h, x, hx, hm => by
    rw [bdecSet] at h
    split at h
    · rename_i ws vs h1 h2
      rw [Comps.matches, Bool.or_eq_true] at hm
      rcases hm with hm | hm
      · exact ⟨t, by simp [Comps.tys], mapOpt_all _ _ _ h1 x (List.mem_filter.2 ⟨hx, hm⟩)⟩
      · obtain ⟨c, hc, h3⟩ := decSet_tys cs xs (by simp [h2]) x hx hm
        exact ⟨c, by simp [Comps.tys, hc], h3⟩
    · simp at h

/-! ## One element -/

theorem seq_takes (s : Bool) (a : Attrs) (cs : Comps) (x : Elt) (h : bdecT (.seq s a cs) x ≠ none) :
    ∃ xs, innerElts a x = some xs ∧ Takes cs xs ∧ (s = false → bdecComps cs xs ≠ none) := by
  rw [bdecT] at h
  split at h
  · simp at h
  · rename_i xs hi
    refine ⟨xs, hi, ?_⟩
    split at h
    · simp at h
    · rename_i vs hv
      cases s with
      | false =>
        have : bdecComps cs xs = some vs := by simpa using hv
        exact ⟨decComps_takes cs xs (by simp [this]), fun _ => by simp [this]⟩
      | true =>
        simp only [if_true] at hv
        split at hv
        · rename_i hall
          have hs : bdecSet cs xs ≠ none := by simp [hv]
          exact ⟨⟨decSet_needed cs xs hs, fun x hx => decSet_tys cs xs hs x hx (List.all_eq_true.1 hall x hx)⟩, by simp⟩
        · simp at hv

theorem refusesEmpty_sound (s : Bool) (a : Attrs) (cs : Comps) (x : Elt) (hi : innerElts a x = some [])
    (h : refusesEmpty s a cs = true) : bdecT (.seq s a cs) x = none := by
  rw [bdecT, hi]
  rw [refusesEmpty] at h
  simp only [List.all_nil, if_true]
  split at h
  · rename_i hn
    rw [hn]
  · rename_i vs hv
    rw [hv]
    simp only [Bool.and_eq_true, Bool.not_eq_true'] at h
    simp [h.1, h.2]

theorem of_takes (s : Bool) (a : Attrs) (t : Ty) (x : Elt) (h : bdecT (.of s a t) x ≠ none) :
    ∃ xs, innerElts a x = some xs ∧ ∀ y ∈ xs, bdecT t y ≠ none := by
  rw [bdecT] at h
  split at h
  · simp at h
  · rename_i xs hi
    split at h
    · simp at h
    · rename_i vs hv
      exact ⟨xs, hi, mapOpt_all _ _ _ hv⟩

theorem prim_takes (k : Prim) (a : Attrs) (x : Elt) (hk : (k == .any) = false) (h : bdecT (.prim k a) x ≠ none) :
    ∃ y, unwrapE a.tags.reverse x = some y ∧ (pieces k = false → y.tlv.constructed = false) := by
  rw [bdecT, bdecPrimT] at h
  simp only [hk, Bool.false_eq_true, if_false] at h
  split at h
  · simp at h
  · rename_i y hy
    refine ⟨y, hy, fun hp => ?_⟩
    cases hc : y.tlv.constructed with
    | false => rfl
    | true =>
      have hj : ∀ xs, joined k y.indef xs = none := fun xs => by cases k <;> simp_all [joined, pieces]
      have : (elts y.tlv.content).bind (joined k y.indef) = none := by
        cases elts y.tlv.content <;> simp [hj]
      simp [hc, this] at h

theorem choice_takes (a : Attrs) (cs : Comps) (x : Elt) (ha : a.tags ≠ []) (h : bdecT (.choice a cs) x ≠ none) :
    ∃ y z, unwrapE a.tags.reverse x = some y ∧ y.inner = some z ∧ bdecAlt cs 0 z ≠ none := by
  rw [bdecT] at h
  split at h
  · contradiction
  · split at h
    · simp at h
    · rename_i y hy
      split at h
      · simp at h
      · rename_i z hz
        exact ⟨y, z, hy, hz, h⟩

theorem alt_takes : ∀ (cs : Comps) (i : Nat) (x : Elt), bdecAlt cs i x ≠ none → ∃ c ∈ cs.tys, bdecT c x ≠ none
  | .nil, _, _, h => by simp [bdecAlt] at h
  | .cons f t cs, i, x, h => by
    rw [bdecAlt] at h
    split at h
    · refine ⟨t, by simp [Comps.tys], ?_⟩
      intro hn
      simp [hn] at h
    · obtain ⟨c, hc, h1⟩ := alt_takes cs (i + 1) x h
      exact ⟨c, by simp [Comps.tys, hc], h1⟩

theorem alts_takes (t : Ty) (cs : Comps) (ht : t.alts = some cs) (x : Elt) (h : bdecT t x ≠ none) : ∃ c ∈ cs.tys, bdecT c x ≠ none := by
  cases t with
  | choice a ds =>
    simp only [Ty.alts] at ht
    split at ht
    · rename_i he
      simp only [Option.some.injEq] at ht
      subst ht
      rw [bdecT] at h
      simp only [List.isEmpty_iff] at he
      rw [he] at h
      exact alt_takes ds 0 x h
    · simp at ht
  | _ => simp [Ty.alts] at ht

theorem unwrap_head (ts : List Tag) (x y : Elt) (h : unwrapE ts x = some y) : ∃ t, ts.head? = some t ∧ x.tlv.has t = true := by
  cases ts with
  | nil => simp [unwrapE] at h
  | cons t ts =>
    refine ⟨t, rfl, ?_⟩
    cases ts with
    | nil =>
      simp only [unwrapE] at h
      split at h
      · assumption
      · simp at h
    | cons t' ts =>
      simp only [unwrapE] at h
      split at h
      · rename_i hc
        simp only [Bool.and_eq_true] at hc
        exact hc.1.1
      · simp at h

/-- The element has the outermost tag of the type. -/
theorem has_outer (t : Ty) (x : Elt) (h1 : t.alts = none) (h2 : t.anyLike = false) (h : bdecT t x ≠ none) :
    ∃ a, t.tags.getLast? = some a ∧ x.tlv.has a = true := by
  have key : ∀ a : Attrs, ∀ y, unwrapE a.tags.reverse x = some y → ∃ b, a.tags.getLast? = some b ∧ x.tlv.has b = true := by
    intro a y hy
    obtain ⟨b, hb, hx⟩ := unwrap_head _ _ _ hy
    exact ⟨b, by rwa [List.head?_reverse] at hb, hx⟩
  have inner : ∀ a xs, innerElts a x = some xs → ∃ y, unwrapE a.tags.reverse x = some y := by
    intro a xs hi
    rw [innerElts] at hi
    split at hi
    · simp at hi
    · exact ⟨_, by assumption⟩
  cases t with
  | prim k a =>
    obtain ⟨y, hy, _⟩ := prim_takes k a x (by cases k <;> simp_all [Ty.anyLike]) h
    exact key a y hy
  | seq s a cs =>
    obtain ⟨xs, hi, _⟩ := seq_takes s a cs x h
    obtain ⟨y, hy⟩ := inner a xs hi
    exact key a y hy
  | of s a t =>
    obtain ⟨xs, hi, _⟩ := of_takes s a t x h
    obtain ⟨y, hy⟩ := inner a xs hi
    exact key a y hy
  | choice a cs =>
    obtain ⟨y, z, hy, _⟩ := choice_takes a cs x (by
      intro he
      simp [Ty.alts, he] at h1) h
    exact key a y hy
  | bad w => simp [bdecT] at h

theorem unwrap_peel (ts : List Tag) (x z : Elt) (hl : 2 ≤ ts.length) (h : unwrapE ts.reverse x = some z) :
    ∃ y, x.inner = some y ∧ unwrapE ts.dropLast.reverse y = some z := by
  rw [← List.tail_reverse]
  have hr : 2 ≤ ts.reverse.length := by simpa using hl
  revert h hr
  cases ts.reverse with
  | nil => intro _ hr; simp at hr
  | cons t ts =>
    cases ts with
    | nil => intro _ hr; simp at hr
    | cons t' ts =>
      intro h _
      rw [unwrapE] at h
      split at h
      · split at h
        · rename_i y hy
          exact ⟨y, hy, h⟩
        · simp at h
      · simp at h

theorem inner_unwrap (a : Attrs) (x : Elt) (xs : List Elt) (h : innerElts a x = some xs) :
    ∃ y, unwrapE a.tags.reverse x = some y ∧ y.tlv.constructed = true ∧ elts y.tlv.content = some xs := by
  rw [innerElts] at h
  split at h
  · simp at h
  · rename_i y hy
    split at h
    · exact ⟨y, hy, by assumption, h⟩
    · simp at h

/-- What is inside an explicit tag. -/
theorem wraps_takes (t : Ty) (x : Elt) (h2 : t.anyLike = false) (hw : t.wraps = true) (h : bdecT t x ≠ none) :
    ∃ y, x.inner = some y ∧ bdecT t.peel y ≠ none := by
  cases t with
  | prim k a =>
    have hk : (k == .any) = false := by cases k <;> simp_all [Ty.anyLike]
    obtain ⟨z, hz, _⟩ := prim_takes k a x hk h
    obtain ⟨y, hy, hu⟩ := unwrap_peel a.tags x z (by simpa [Ty.wraps] using hw) hz
    refine ⟨y, hy, ?_⟩
    simpa only [Ty.peel, Ty.mapAttrs, bdecT, bdecPrimT, hk, hz, hu, Bool.false_eq_true, if_false] using h
  | seq s a cs =>
    obtain ⟨xs, hi, _⟩ := seq_takes s a cs x h
    obtain ⟨z, hz, hc, _⟩ := inner_unwrap a x xs hi
    obtain ⟨y, hy, hu⟩ := unwrap_peel a.tags x z (by simpa [Ty.wraps] using hw) hz
    refine ⟨y, hy, ?_⟩
    simpa only [Ty.peel, Ty.mapAttrs, bdecT, innerElts, hz, hu] using h
  | of s a t =>
    obtain ⟨xs, hi, _⟩ := of_takes s a t x h
    obtain ⟨z, hz, hc, _⟩ := inner_unwrap a x xs hi
    obtain ⟨y, hy, hu⟩ := unwrap_peel a.tags x z (by simpa [Ty.wraps] using hw) hz
    refine ⟨y, hy, ?_⟩
    simpa only [Ty.peel, Ty.mapAttrs, bdecT, innerElts, hz, hu] using h
  | choice a cs =>
    have hl : 1 ≤ a.tags.length := by simpa [Ty.wraps] using hw
    obtain ⟨z, w, hz, hr, hd⟩ := choice_takes a cs x (by intro he; simp [he] at hl) h
    by_cases h1 : 2 ≤ a.tags.length
    · obtain ⟨y, hy, hu⟩ := unwrap_peel a.tags x z h1 hz
      refine ⟨y, hy, ?_⟩
      simp only [Ty.peel, Ty.mapAttrs, bdecT]
      split
      · rename_i he
        have := congrArg List.length he
        simp at this
        omega
      · simp only [hu, hr]
        exact hd
    · obtain ⟨b, hb⟩ := List.length_eq_one_iff.1 (show a.tags.length = 1 by omega)
      rw [hb] at hz
      simp only [List.reverse_singleton, unwrapE] at hz
      split at hz
      · simp only [Option.some.injEq] at hz
        subst hz
        refine ⟨w, hr, ?_⟩
        simp only [Ty.peel, Ty.mapAttrs, bdecT, hb, List.dropLast_singleton]
        exact hd
      · simp at hz
  | bad w => simp [Ty.wraps] at hw

theorem inner_mem (x y : Elt) (xs : List Elt) (h1 : x.inner = some y) (h2 : elts x.tlv.content = some xs) : y ∈ xs := by
  rw [Elt.inner] at h1
  split at h1
  · rw [h2] at h1
    split at h1
    · rename_i z e
      simp only [Option.some.injEq] at e h1
      simp [e, h1]
    · simp at h1
  · simp only [Option.map_eq_some_iff] at h1
    obtain ⟨⟨z, r⟩, h1, rfl⟩ := h1
    revert h1 h2
    cases x.tlv.content with
    | nil =>
      intro h2 h1
      have : readElt [] = none := by decide
      simp [this] at h1
    | cons c b =>
      intro h2 h1
      simp only [elts, List.length_cons, parseElts, h1] at h2
      split at h2
      · simp at h2
      · simp only [Option.some.injEq] at h2
        simp [← h2]

/-- With one tag the contents are those of the element. -/
theorem inner_single (a : Attrs) (x : Elt) (xs : List Elt) (hl : ¬ 2 ≤ a.tags.length) (h : innerElts a x = some xs) :
    x.tlv.constructed = true ∧ elts x.tlv.content = some xs := by
  obtain ⟨y, hy, h1, h2⟩ := inner_unwrap a x xs h
  have : unwrapE a.tags.reverse x = some x := by
    cases ht : a.tags with
    | nil => simp [ht, unwrapE] at hy
    | cons b l =>
      cases l with
      | nil =>
        simp only [ht, List.reverse_singleton, unwrapE] at hy ⊢
        split at hy
        · rename_i hb; simp [hb]
        · simp at hy
      | cons _ _ => simp [ht] at hl
  rw [this, Option.some.injEq] at hy
  subst hy
  exact ⟨h1, h2⟩

theorem prim_single (k : Prim) (a : Attrs) (x : Elt) (hk : (k == .any) = false) (hl : ¬ 2 ≤ a.tags.length)
    (h : bdecT (.prim k a) x ≠ none) (hp : pieces k = false) : x.tlv.constructed = false := by
  obtain ⟨y, hy, h1⟩ := prim_takes k a x hk h
  cases ht : a.tags with
  | nil => simp [ht, unwrapE] at hy
  | cons b l =>
    cases l with
    | nil =>
      simp only [ht, List.reverse_singleton, unwrapE] at hy
      split at hy
      · simp only [Option.some.injEq] at hy
        rw [hy]
        exact h1 hp
      · simp at hy
    | cons _ _ => simp [ht] at hl

/-! ## Soundness -/

theorem inside_sound (ap : Ty → Bool) (u : Ty) (h : u.inside ap = true) (hu : u.wraps = false) (x y : Elt)
    (hy : x.inner = some y) (hx : bdecT u x ≠ none) : ∃ d, ap d = true ∧ bdecT d y ≠ none := by
  cases u with
  | seq s a cs =>
    obtain ⟨xs, hi, ⟨_, ht⟩, _⟩ := seq_takes s a cs x hx
    obtain ⟨_, hi⟩ := inner_single a x xs (by simpa [Ty.wraps] using hu) hi
    obtain ⟨d, hd, h1⟩ := ht y (inner_mem _ _ _ hy hi)
    exact ⟨d, List.all_eq_true.1 h d hd, h1⟩
  | of s a t =>
    obtain ⟨xs, hi, ht⟩ := of_takes s a t x hx
    obtain ⟨_, hi⟩ := inner_single a x xs (by simpa [Ty.wraps] using hu) hi
    exact ⟨t, h, ht y (inner_mem _ _ _ hy hi)⟩
  | _ => simp [Ty.inside] at h

theorem within_sound (ap : Ty → Ty → Bool) (hap : ∀ t u, ap t u = true → ∀ x, bdecT t x ≠ none → bdecT u x ≠ none → False)
    (t u : Ty) (h : within ap t u = true) (ht : t.wraps = false) (hu : u.wraps = false) (at' : t.anyLike = false)
    (au : u.anyLike = false) (x : Elt) (h1 : bdecT t x ≠ none) (h2 : bdecT u x ≠ none) : False := by
  have seq : ∀ s a cs, (Ty.seq s a cs).wraps = false → bdecT (.seq s a cs) x ≠ none → ∃ xs, x.tlv.constructed = true ∧
      elts x.tlv.content = some xs ∧ Takes cs xs ∧ (s = false → bdecComps cs xs ≠ none) ∧ innerElts a x = some xs := by
    intro s a cs hw hd
    obtain ⟨xs, hi, g⟩ := seq_takes s a cs x hd
    obtain ⟨g1, g2⟩ := inner_single a x xs (by simpa [Ty.wraps] using hw) hi
    exact ⟨xs, g1, g2, g.1, g.2, hi⟩
  have of : ∀ s a c, (Ty.of s a c).wraps = false → bdecT (.of s a c) x ≠ none → ∃ xs, x.tlv.constructed = true ∧
      elts x.tlv.content = some xs ∧ ∀ y ∈ xs, bdecT c y ≠ none := by
    intro s a c hw hd
    obtain ⟨xs, hi, g⟩ := of_takes s a c x hd
    obtain ⟨g1, g2⟩ := inner_single a x xs (by simpa [Ty.wraps] using hw) hi
    exact ⟨xs, g1, g2, g⟩
  have prim : ∀ k a, (Ty.prim k a).wraps = false → (Ty.prim k a).anyLike = false → bdecT (.prim k a) x ≠ none → pieces k = false →
      x.tlv.constructed = false := by
    intro k a hw ha hd
    exact prim_single k a x (by cases k <;> simp_all [Ty.anyLike]) (by simpa [Ty.wraps] using hw) hd
  cases t with
  | prim k a =>
    have hp := prim k a ht at' h1
    cases u with
    | seq s b ds => obtain ⟨_, g, _⟩ := seq s b ds hu h2; simp [hp (by simpa [within] using h)] at g
    | of s b d => obtain ⟨_, g, _⟩ := of s b d hu h2; simp [hp (by simpa [within] using h)] at g
    | _ => simp [within] at h
  | seq s a cs =>
    obtain ⟨xs, g1, g2, g3, g4, g5⟩ := seq s a cs ht h1
    cases u with
    | prim k b => have hp := prim k b hu au h2 (by simpa [within] using h); simp [hp] at g1
    | seq s' b ds =>
      obtain ⟨ys, _, k2, k3, k4, _⟩ := seq s' b ds hu h2
      have : ys = xs := by simpa [g2] using k2.symm
      subst this
      simp only [within, Bool.or_eq_true, Bool.and_eq_true, Bool.not_eq_true', List.any_eq_true, List.all_eq_true] at h
      rcases h with (⟨⟨e1, e2⟩, h⟩ | ⟨c, hc, h⟩) | ⟨d, hd, h⟩
      · exact clash_sound ap hap 64 cs ds h ys (g4 e1) (k4 e2)
      · obtain ⟨y, hy, e⟩ := g3.1 c hc
        obtain ⟨d, hd, e'⟩ := k3.2 y hy
        exact hap c d (h d hd) y e e'
      · obtain ⟨y, hy, e⟩ := k3.1 d hd
        obtain ⟨c, hc, e'⟩ := g3.2 y hy
        exact hap c d (h c hc) y e' e
    | of s' b d =>
      obtain ⟨ys, _, k2, k3⟩ := of s' b d hu h2
      have : ys = xs := by simpa [g2] using k2.symm
      subst this
      simp only [within, Bool.or_eq_true, Bool.and_eq_true, List.any_eq_true, List.all_eq_true] at h
      rcases h with ⟨c, hc, h⟩ | ⟨h, he⟩
      · obtain ⟨y, hy, e⟩ := g3.1 c hc
        exact hap c d h y e (k3 y hy)
      · cases ys with
        | nil => exact h1 (refusesEmpty_sound s a cs x g5 he)
        | cons y ys =>
          obtain ⟨c, hc, e⟩ := g3.2 y (by simp)
          exact hap c d (h c hc) y e (k3 y (by simp))
    | _ => simp [within] at h
  | of s a c =>
    obtain ⟨xs, g1, g2, g3⟩ := of s a c ht h1
    cases u with
    | prim k b => have hp := prim k b hu au h2 (by simpa [within] using h); simp [hp] at g1
    | seq s' b ds =>
      obtain ⟨ys, _, k2, k3, _, k5⟩ := seq s' b ds hu h2
      have : ys = xs := by simpa [g2] using k2.symm
      subst this
      simp only [within, Bool.or_eq_true, Bool.and_eq_true, List.any_eq_true, List.all_eq_true] at h
      rcases h with ⟨d, hd, h⟩ | ⟨h, he⟩
      · obtain ⟨y, hy, e⟩ := k3.1 d hd
        exact hap c d h y (g3 y hy) e
      · cases ys with
        | nil => exact h2 (refusesEmpty_sound s' b ds x k5 he)
        | cons y ys =>
          obtain ⟨d, hd, e⟩ := k3.2 y (by simp)
          exact hap c d (h d hd) y (g3 y (by simp)) e
    | _ => simp [within] at h
  | _ => cases u <;> simp [within] at h

/-- No element is accepted by both. -/
theorem apart_sound : ∀ (n : Nat) (t u : Ty), apart n t u = true → ∀ x, bdecT t x ≠ none → bdecT u x ≠ none → False
  | 0, t, u, h, _, _, _ => by simp [apart] at h
  | n + 1, t, u, h, x, h1, h2 => by
    have ih := apart_sound n
    rw [apart] at h
    split at h
    · rename_i cs e
      obtain ⟨c, hc, g⟩ := alts_takes t cs e x h1
      exact ih c u (List.all_eq_true.1 h c hc) x g h2
    · rename_i ds e1 e2
      obtain ⟨d, hd, g⟩ := alts_takes u ds e2 x h2
      exact ih t d (List.all_eq_true.1 h d hd) x h1 g
    · rename_i e1 e2
      split at h
      · simp at h
      · rename_i hany
        simp only [Bool.or_eq_true, not_or, Bool.not_eq_true] at hany
        obtain ⟨a, ha, xa⟩ := has_outer t x e1 hany.1 h1
        obtain ⟨b, hb, xb⟩ := has_outer u x e2 hany.2 h2
        rw [ha, hb] at h
        simp only [] at h
        split at h
        · split at h
          · rename_i hw
            simp only [Bool.and_eq_true] at hw
            obtain ⟨y, hy, g1⟩ := wraps_takes t x hany.1 hw.1 h1
            obtain ⟨y', hy', g2⟩ := wraps_takes u x hany.2 hw.2 h2
            rw [hy] at hy'
            simp only [Option.some.injEq] at hy'
            rw [← hy'] at g2
            exact ih _ _ h y g1 g2
          · rename_i hw
            split at h
            · rename_i hw1
              have hw2 : u.wraps = false := by simpa [hw1] using hw
              obtain ⟨y, hy, g1⟩ := wraps_takes t x hany.1 hw1 h1
              obtain ⟨d, hd, g2⟩ := inside_sound _ u h hw2 x y hy h2
              exact ih _ _ hd y g1 g2
            · rename_i hw1
              split at h
              · rename_i hw2
                obtain ⟨y, hy, g1⟩ := wraps_takes u x hany.2 hw2 h2
                obtain ⟨c, hc, g2⟩ := inside_sound _ t h (by simpa using hw1) x y hy h1
                exact ih _ _ hc y g2 g1
              · rename_i hw2
                exact within_sound _ ih t u h (by simpa using hw1) (by simpa using hw2) hany.1 hany.2 x h1 h2
        · rename_i hs
          apply hs
          simp only [TLV.has, Bool.and_eq_true, beq_iff_eq] at xa xb
          simp [Tag.same, ← xa.1, ← xb.1, ← xa.2, ← xb.2]

end BerApart
end Asn1
end Verif
