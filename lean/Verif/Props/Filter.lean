import Verif.Asn1.BerRead
import Verif.Asn1.Items
import Verif.Gen.Rfc2251

/-!
# LDAP search filters

C44: RFC 2251, 4.5.1 defines `Filter` recursively:

    Filter ::= CHOICE { and [0] SET OF Filter, or [1] SET OF Filter, not [2] Filter, equalityMatch [3] ..., ... }

rfc2251.py:184-252 unrolls it: `Filter` contains `Filter2`, which contains `Filter3`, which has no operators.
The theorems say what that does to filters of any shape and size: two operators on a path are understood, three
are not, and nothing is understood wrongly.
-/

namespace Verif
namespace Props
namespace Filter

open Asn1

/-- The assertions, alternatives `[3]` to `[9]`; here the alternatives of `Filter3`. -/
def base : Comps := match Rfc2251.Filter3.call.ty with
  | .choice _ cs => cs
  | _ => .nil

/-- A filter in the sense of the RFC. -/
inductive Fil
  | leaf (i : Nat) (v : Val)
  | and (fs : List Fil)
  | or (fs : List Fil)
  | not (f : Fil)

mutual
/-- Its BER encodings: operators from the ASN.1 above, assertions as in `Verif/Spec/Ber.lean`. -/
def Wire : Fil → Bytes → Prop
  | .leaf i v, b => Ber.alternative false base i v b
  | .and fs, b => ∃ es, Wires fs es ∧ Ber.Element .context 0 true es.flatten b
  | .or fs, b => ∃ es, Wires fs es ∧ Ber.Element .context 1 true es.flatten b
  | .not f, b => ∃ e, Wire f e ∧ Ber.Element .context 2 true e b
def Wires : List Fil → List Bytes → Prop
  | [], [] => True
  | f :: fs, e :: es => Wire f e ∧ Wires fs es
  | _, _ => False
end

mutual
/-- The largest number of operators on a path. -/
def depth : Fil → Nat
  | .leaf _ _ => 0
  | .and fs => depths fs + 1
  | .or fs => depths fs + 1
  | .not f => depth f + 1
def depths : List Fil → Nat
  | [] => 0
  | f :: fs => max (depth f) (depths fs)
end

/-- The value of a class with `n` levels of operators that stands for a filter: the assertions come after the three
operators, except in the last class, which has none. -/
def value : Nat → Fil → Val
  | 0, .leaf i v => .alt i v
  | _ + 1, .leaf i v => .alt (i + 3) v
  | n + 1, .and fs => .alt 0 (.list (.ofList (fs.map (value n))))
  | n + 1, .or fs => .alt 1 (.list (.ofList (fs.map (value n))))
  | n + 1, .not f => .alt 2 (value n f)
  | 0, _ => .absent

/-! ## The classes are an unrolling -/

/-- The definition of the RFC, unrolled `n` times. -/
def unroll : Nat → Comps
  | 0 => base
  | n + 1 => .cons ⟨"and", .req, none⟩ (.of true ⟨[⟨.context, true, 0⟩], .inter .nil, []⟩ (.choice ⟨[], .inter .nil, []⟩ (unroll n)))
      (.cons ⟨"or", .req, none⟩ (.of true ⟨[⟨.context, true, 1⟩], .inter .nil, []⟩ (.choice ⟨[], .inter .nil, []⟩ (unroll n)))
        (.cons ⟨"not", .req, none⟩ (.choice ⟨[⟨.context, true, 2⟩], .inter .nil, []⟩ (unroll n)) base))

/-- A class with `n` levels of operators. -/
def level (n : Nat) : Ty := .choice ⟨[], .inter .nil, []⟩ (unroll n)

theorem filter3 : Rfc2251.Filter3.call.ty = level 0 := rfl
theorem filter2 : Rfc2251.Filter2.call.ty = level 1 := rfl
theorem filter : Rfc2251.Filter.call.ty = level 2 := rfl

/-! ## Filters that are not too deep are read -/

theorem alternative_leaf (i : Nat) (v : Val) (b : Bytes) (h : Ber.alternative false base i v b) :
    ∀ n, Ber.reads false (level n) (value n (.leaf i v)) b
  | 0 => by simpa [level, value, Ber.reads, unroll] using h
  | n + 1 => by simpa [level, value, Ber.reads, unroll, Ber.alternative] using h

theorem reads_tagged (cs : Comps) (v : Val) (e b : Bytes) (h : Ber.reads false (.choice ⟨[], .inter .nil, []⟩ cs) v e)
    (hb : Ber.Element .context 2 true e b) : Ber.reads false (.choice ⟨[⟨.context, true, 2⟩], .inter .nil, []⟩ cs) v b := by
  cases v <;> simp only [Ber.reads, if_true] at h ⊢
  simp only [List.cons_ne_nil, if_false]
  exact ⟨true, e, [], h, b, by simpa using hb, rfl⟩

mutual
theorem wire_reads : ∀ (f : Fil) (n : Nat) (b : Bytes), depth f ≤ n → Wire f b → Ber.reads false (level n) (value n f) b
  | .leaf i v, n, b, _, h => alternative_leaf i v b h n
  | .and fs, 0, b, hd, h => by simp [depth] at hd
  | .or fs, 0, b, hd, h => by simp [depth] at hd
  | .not f, 0, b, hd, h => by simp [depth] at hd
  | .and fs, n + 1, b, hd, h => by
    simp only [depth] at hd
    simp only [Wire] at h
    obtain ⟨es, h1, h2⟩ := h
    have := wires_reads fs n es (by omega) h1
    simp only [level, value, Ber.reads, unroll, Ber.alternative, if_true]
    exact ⟨es, ⟨b, h2, rfl⟩, by simpa [level, Vals.toList_ofList] using this⟩
  | .or fs, n + 1, b, hd, h => by
    simp only [depth] at hd
    simp only [Wire] at h
    obtain ⟨es, h1, h2⟩ := h
    have := wires_reads fs n es (by omega) h1
    simp only [level, value, Ber.reads, unroll, Ber.alternative, if_true]
    exact ⟨es, ⟨b, h2, rfl⟩, by simpa [level, Vals.toList_ofList] using this⟩
  | .not f, n + 1, b, hd, h => by
    simp only [depth] at hd
    simp only [Wire] at h
    obtain ⟨e, h1, h2⟩ := h
    have := wire_reads f n e (by omega) h1
    simp only [level, value, Ber.reads, unroll, Ber.alternative, if_true]
    exact reads_tagged _ _ _ _ this h2
theorem wires_reads : ∀ (fs : List Fil) (n : Nat) (es : List Bytes), depths fs ≤ n → Wires fs es →
    Der.each2 (Ber.reads false (level n)) (fs.map (value n)) es
  | [], n, [], _, _ => trivial
  | [], n, _ :: _, _, h => by simp [Wires] at h
  | _ :: _, n, [], _, h => by simp [Wires] at h
  | f :: fs, n, e :: es, hd, h => by
    simp only [depths] at hd
    simp only [Wires] at h
    exact ⟨wire_reads f n e (by omega) h.1, wires_reads fs n es (by omega) h.2⟩
end

/-- **C44.** A filter with at most two operators on every path is read, as what it is. -/
theorem read (f : Fil) (hd : depth f ≤ 2) (b rest : Bytes) (h : Wire f b) :
    decode Rfc2251.Filter.call.ty (b ++ rest) = some (value 2 f, rest) := by
  rw [filter]
  exact ber_decode (level 2) _ b rest (by decide +kernel) (wire_reads f 2 b hd h)

/-! ## Deeper filters are refused -/

theorem decAlt_none : ∀ (cs : Comps) (i : Nat) (x : TLV), cs.matches x = false → decAlt cs i x = none
  | .nil, _, _, _ => by simp [decAlt]
  | .cons f t cs, i, x, h => by
    simp only [Comps.matches, Bool.or_eq_false_iff] at h
    simp [decAlt, h.1, decAlt_none cs (i + 1) x h.2]

theorem base_matches (x : TLV) : base.matches x =
    (x.has ⟨.context, true, 3⟩ || (x.has ⟨.context, true, 4⟩ || (x.has ⟨.context, true, 5⟩ || (x.has ⟨.context, true, 6⟩ ||
      (x.has ⟨.context, false, 7⟩ || (x.has ⟨.context, true, 8⟩ || (x.has ⟨.context, true, 9⟩ || false))))))) := rfl

theorem base_foreign (x : TLV) (hn : x.num < 3) : decT (level 0) x = none := by
  have : decAlt base 0 x = none := by
    refine decAlt_none _ _ _ ?_
    rw [base_matches]
    simp only [TLV.has]
    simp only [Bool.or_eq_false_iff, Bool.and_eq_false_iff, beq_eq_false_iff_ne]
    exact ⟨.inr (by omega), .inr (by omega), .inr (by omega), .inr (by omega), .inr (by omega), .inr (by omega),
      .inr (by omega), trivial⟩
  simpa [level, decT, unroll] using this

theorem base_wf : base.wf = true := by decide +kernel

/-- Every encoding is one element. -/
theorem wire_tlv (f : Fil) (b : Bytes) (h : Wire f b) : ∃ x, IsTLV b x := by
  cases f with
  | leaf i v =>
    simp only [Wire] at h
    obtain ⟨x, h1, _⟩ := brA base i v b base_wf h
    exact ⟨x, h1⟩
  | and fs => simp only [Wire] at h; obtain ⟨es, _, h⟩ := h; exact ⟨_, element_of _ _ _ _ _ h⟩
  | or fs => simp only [Wire] at h; obtain ⟨es, _, h⟩ := h; exact ⟨_, element_of _ _ _ _ _ h⟩
  | not f => simp only [Wire] at h; obtain ⟨es, _, h⟩ := h; exact ⟨_, element_of _ _ _ _ _ h⟩

theorem wires_items : ∀ (fs : List Fil) (es : List Bytes), Wires fs es → ∃ xs, items es.flatten = some xs
  | [], [], _ => ⟨[], items_nil⟩
  | [], _ :: _, h => by simp [Wires] at h
  | _ :: _, [], h => by simp [Wires] at h
  | f :: fs, e :: es, h => by
    simp only [Wires] at h
    obtain ⟨x, hx⟩ := wire_tlv f e h.1
    obtain ⟨xs, hxs⟩ := wires_items fs es h.2
    exact ⟨x :: xs, by simpa using items_cons hx _ _ hxs⟩

mutual
theorem wire_refused : ∀ (f : Fil) (n : Nat) (b : Bytes), n < depth f → Wire f b → ∃ x, IsTLV b x ∧ decT (level n) x = none
  | .leaf i v, n, b, hd, _ => by simp [depth] at hd
  | .and fs, 0, b, _, h => by
    simp only [Wire] at h; obtain ⟨es, _, h⟩ := h
    exact ⟨_, element_of _ _ _ _ _ h, base_foreign _ (by simp)⟩
  | .or fs, 0, b, _, h => by
    simp only [Wire] at h; obtain ⟨es, _, h⟩ := h
    exact ⟨_, element_of _ _ _ _ _ h, base_foreign _ (by simp)⟩
  | .not fs, 0, b, _, h => by
    simp only [Wire] at h; obtain ⟨es, _, h⟩ := h
    exact ⟨_, element_of _ _ _ _ _ h, base_foreign _ (by simp)⟩
  | .and fs, n + 1, b, hd, h => by
    simp only [depth] at hd
    simp only [Wire] at h
    obtain ⟨es, h1, h2⟩ := h
    obtain ⟨xs, h3, h4⟩ := wires_refused fs n es (by omega) h1
    refine ⟨_, element_of _ _ _ _ _ h2, ?_⟩
    rw [show decT (level n) = fun x => decAlt (unroll n) 0 x from funext (fun x => by simp [level, decT])] at h4
    simp [level, unroll, decT, decAlt, Ty.matches, TLV.has, innerItems, unwrap, h3, h4]
  | .or fs, n + 1, b, hd, h => by
    simp only [depth] at hd
    simp only [Wire] at h
    obtain ⟨es, h1, h2⟩ := h
    obtain ⟨xs, h3, h4⟩ := wires_refused fs n es (by omega) h1
    refine ⟨_, element_of _ _ _ _ _ h2, ?_⟩
    rw [show decT (level n) = fun x => decAlt (unroll n) 0 x from funext (fun x => by simp [level, decT])] at h4
    simp [level, unroll, decT, decAlt, Ty.matches, TLV.has, innerItems, unwrap, h3, h4]
  | .not f, n + 1, b, hd, h => by
    simp only [depth] at hd
    simp only [Wire] at h
    obtain ⟨e, h1, h2⟩ := h
    obtain ⟨x, h3, h4⟩ := wire_refused f n e (by omega) h1
    refine ⟨_, element_of _ _ _ _ _ h2, ?_⟩
    have h5 := h3.2 []
    simp only [List.append_nil] at h5
    simp [level, decT] at h4
    simp [level, unroll, decT, decAlt, Ty.matches, TLV.has, unwrap, h5, h4]
theorem wires_refused : ∀ (fs : List Fil) (n : Nat) (es : List Bytes), n < depths fs → Wires fs es →
    ∃ xs, items es.flatten = some xs ∧ mapOpt (decT (level n)) xs = none
  | [], n, _, hd, _ => by simp [depths] at hd
  | _ :: _, n, [], _, h => by simp [Wires] at h
  | f :: fs, n, e :: es, hd, h => by
    simp only [depths] at hd
    simp only [Wires] at h
    by_cases hf : n < depth f
    · obtain ⟨x, h1, h2⟩ := wire_refused f n e hf h.1
      obtain ⟨xs, h3⟩ := wires_items fs es h.2
      exact ⟨x :: xs, by simpa using items_cons h1 _ _ h3, by simp [mapOpt, h2]⟩
    · obtain ⟨x, h1⟩ := wire_tlv f e h.1
      obtain ⟨xs, h2, h3⟩ := wires_refused fs n es (by omega) h.2
      refine ⟨x :: xs, by simpa using items_cons h1 _ _ h2, ?_⟩
      cases hx : decT (level n) x <;> simp [mapOpt, hx, h3]
end

/-- **C44.** A filter with three operators on some path is refused. -/
theorem refused (f : Fil) (hd : 3 ≤ depth f) (b rest : Bytes) (h : Wire f b) :
    decode Rfc2251.Filter.call.ty (b ++ rest) = none := by
  rw [filter]
  obtain ⟨x, h1, h2⟩ := wire_refused f 2 b (by omega) h
  simp only [decode, h1.2 rest, h2]

/-! ## Whatever is decoded stands for a filter -/

theorem decAlt_alt : ∀ (cs : Comps) (i : Nat) (x : TLV) (v : Val), decAlt cs i x = some v → ∃ j w, v = .alt (i + j) w
  | .nil, _, _, _, h => by simp [decAlt] at h
  | .cons f t cs, i, x, v, h => by
    simp only [decAlt] at h
    split at h
    · cases hd : decT t x with
      | none => simp [hd] at h
      | some w =>
        simp only [hd, Option.some.injEq] at h
        exact ⟨0, w, h.symm⟩
    · obtain ⟨j, w, h⟩ := decAlt_alt cs (i + 1) x v h
      exact ⟨j + 1, w, by rw [h]; congr 1; omega⟩

theorem mapOpt_value (n : Nat) (ih : ∀ (x : TLV) (v : Val), decAlt (unroll n) 0 x = some v → ∃ f, depth f ≤ n ∧ v = value n f) :
    ∀ (xs : List TLV) (vs : List Val), mapOpt (fun x => decAlt (unroll n) 0 x) xs = some vs →
      ∃ fs, depths fs ≤ n ∧ vs = fs.map (value n)
  | [], vs, h => by
    simp only [mapOpt, Option.some.injEq] at h
    exact ⟨[], by simp [depths], by simp [← h]⟩
  | x :: xs, vs, h => by
    simp only [mapOpt] at h
    cases h1 : decAlt (unroll n) 0 x with
    | none => simp [h1] at h
    | some v =>
      cases h2 : mapOpt (fun x => decAlt (unroll n) 0 x) xs with
      | none => simp [h1, h2] at h
      | some ws =>
        simp only [h1, h2, Option.some.injEq] at h
        obtain ⟨f, hf, rfl⟩ := ih x v h1
        obtain ⟨fs, hfs, rfl⟩ := mapOpt_value n ih xs ws h2
        exact ⟨f :: fs, by simp only [depths]; omega, by simp [← h]⟩

theorem decAlt_value : ∀ (n : Nat) (x : TLV) (v : Val), decAlt (unroll n) 0 x = some v → ∃ f, depth f ≤ n ∧ v = value n f
  | 0, x, v, h => by
    obtain ⟨j, w, rfl⟩ := decAlt_alt _ _ _ _ h
    exact ⟨.leaf (0 + j) w, by simp [depth], rfl⟩
  | n + 1, x, v, h => by
    have hl : decT (.choice ⟨[], .inter .nil, []⟩ (unroll n)) = fun x => decAlt (unroll n) 0 x :=
      funext (fun x => by simp [decT])
    simp only [unroll, decAlt] at h
    split at h
    · cases hd : decT (.of true ⟨[⟨.context, true, 0⟩], .inter .nil, []⟩ (.choice ⟨[], .inter .nil, []⟩ (unroll n))) x with
      | none => simp [hd] at h
      | some w =>
        simp only [hd, Option.some.injEq] at h
        simp only [decT.eq_3, hl] at hd
        split at hd
        · simp at hd
        split at hd
        · simp at hd
        rename_i vs hvs
        obtain ⟨fs, h1, rfl⟩ := mapOpt_value n (decAlt_value n) _ vs hvs
        simp only [Option.some.injEq] at hd
        exact ⟨.and fs, by simp only [depth]; omega, by rw [← h, ← hd]; rfl⟩
    split at h
    · cases hd : decT (.of true ⟨[⟨.context, true, 1⟩], .inter .nil, []⟩ (.choice ⟨[], .inter .nil, []⟩ (unroll n))) x with
      | none => simp [hd] at h
      | some w =>
        simp only [hd, Option.some.injEq] at h
        simp only [decT.eq_3, hl] at hd
        split at hd
        · simp at hd
        split at hd
        · simp at hd
        rename_i vs hvs
        obtain ⟨fs, h1, rfl⟩ := mapOpt_value n (decAlt_value n) _ vs hvs
        simp only [Option.some.injEq] at hd
        exact ⟨.or fs, by simp only [depth]; omega, by rw [← h, ← hd]; rfl⟩
    split at h
    · cases hd : decT (.choice ⟨[⟨.context, true, 2⟩], .inter .nil, []⟩ (unroll n)) x with
      | none => simp [hd] at h
      | some w =>
        simp only [hd, Option.some.injEq] at h
        simp only [decT] at hd
        split at hd
        · simp at hd
        split at hd
        · simp at hd
        rename_i z r hz
        obtain ⟨f, h1, rfl⟩ := decAlt_value n z w hd
        exact ⟨.not f, by simp only [depth]; omega, by rw [← h]; rfl⟩
    · obtain ⟨j, w, rfl⟩ := decAlt_alt _ _ _ _ h
      exact ⟨.leaf j w, by simp [depth], by simp [value, Nat.add_comm]⟩

/-- **C44.** Every decoded value stands for a filter with at most two operators on each path. -/
theorem decoded (b rest : Bytes) (v : Val) (h : decode Rfc2251.Filter.call.ty b = some (v, rest)) :
    ∃ f, depth f ≤ 2 ∧ v = value 2 f := by
  rw [filter] at h
  simp only [decode] at h
  split at h
  · simp at h
  split at h
  · simp at h
  rename_i hw
  simp only [Option.some.injEq, Prod.mk.injEq] at h
  obtain ⟨rfl, rfl⟩ := h
  exact decAlt_value 2 _ _ (by simpa [level, decT] using hw)

/-! ## The same inside a search request -/

/-- The `n`-th component, all components up to it being mandatory. -/
def nth : Nat → Comps → Option Ty
  | 0, .cons f t _ => if f.mode.isReq then some t else none
  | n + 1, .cons f _ cs => if f.mode.isReq then nth n cs else none
  | _, .nil => none

theorem decComps_none (t : Ty) (x : TLV) (hx : decT t x = none) : ∀ (n : Nat) (cs : Comps) (xs : List TLV), nth n cs = some t →
    xs[n]? = some x → decComps cs xs = none
  | _, .nil, _, h, _ => by simp [nth] at h
  | n, .cons _ _ _, [], _, h => by simp at h
  | 0, .cons f t' cs, y :: ys, h, h' => by
    simp only [nth] at h
    split at h <;> simp only [Option.some.injEq, reduceCtorEq] at h
    rename_i hf
    simp only [List.getElem?_cons_zero, Option.some.injEq] at h'
    subst h h'
    simp [decComps, hf, hx]
  | n + 1, .cons f t' cs, y :: ys, h, h' => by
    simp only [nth] at h
    split at h
    rotate_left
    · simp at h
    rename_i hf
    simp only [List.getElem?_cons_succ] at h'
    simp only [decComps, hf, Bool.true_or, if_true, decComps_none t x hx n cs ys h h']
    cases decT t' y <;> rfl

/-- A SEQUENCE whose `n`-th element is refused is refused. -/
theorem seq_none (a : Attrs) (tg : Tag) (ht : a.tags = [tg]) (cs : Comps) (t : Ty) (n : Nat) (hn : nth n cs = some t)
    (es : List Bytes) (hl : es.length = n) (hes : ∀ e ∈ es, ∃ x, IsTLV e x) (e : Bytes) (y : TLV) (he : IsTLV e y)
    (hy : decT t y = none) (c : Cls) (m : Nat) (k : Bool) (s b : Bytes) :
    decT (.seq false a cs) ⟨c, k, m, es.flatten ++ (e ++ s), b⟩ = none := by
  cases hi : innerItems a ⟨c, k, m, es.flatten ++ (e ++ s), b⟩ with
  | none => simp [decT, hi]
  | some xs =>
    have hxs : items (es.flatten ++ (e ++ s)) = some xs := by
      simp only [innerItems, ht, List.reverse_singleton, unwrap] at hi
      split at hi
      · simp at hi
      rename_i z hz
      split at hz <;> simp only [Option.some.injEq, reduceCtorEq] at hz
      subst hz
      split at hi
      · exact hi
      · simp at hi
    have hx : ∀ (es : List Bytes) (xs : List TLV), (∀ e ∈ es, ∃ x, IsTLV e x) → items (es.flatten ++ (e ++ s)) = some xs →
        xs[es.length]? = some y := by
      intro es
      induction es with
      | nil =>
        intro xs _ hq
        obtain ⟨ys, rfl, _⟩ := items_uncons he s xs (by simpa using hq)
        rfl
      | cons e' es ih =>
        intro xs h1 hq
        obtain ⟨x, hx⟩ := h1 e' (by simp)
        obtain ⟨ys, rfl, hy⟩ := items_uncons hx _ xs (by simpa using hq)
        simpa using ih ys (fun e he => h1 e (by simp [he])) hy
    have hd := decComps_none t y hy n cs xs hn (hl ▸ hx es xs hes hxs)
    simp [decT, hi, hd]

theorem search_shape : ∃ a cs, Rfc2251.SearchRequest.call.ty = .seq false a cs ∧ a.tags = [⟨.application, true, 3⟩] ∧
    nth 6 cs = some (level 2) := ⟨_, _, rfl, rfl, rfl⟩

theorem search_none (f : Fil) (hd : 3 ≤ depth f) (b : Bytes) (h : Wire f b) (es : List Bytes) (hl : es.length = 6)
    (hes : ∀ e ∈ es, ∃ c n k d, Ber.Element c n k d e) (c : Cls) (n : Nat) (k : Bool) (s m : Bytes) :
    decT Rfc2251.SearchRequest.call.ty ⟨c, k, n, es.flatten ++ (b ++ s), m⟩ = none := by
  obtain ⟨x, h1, h2⟩ := wire_refused f 2 b (by omega) h
  obtain ⟨a, cs, h3, h4, h5⟩ := search_shape
  rw [h3]
  exact seq_none a _ h4 cs (level 2) 6 h5 es hl
    (fun e he => by obtain ⟨c, n, k, d, hd⟩ := hes e he; exact ⟨_, element_of _ _ _ _ _ hd⟩) b x h1 h2 c n k s m

/-- **C44.** A search request with such a filter is refused: six elements, the filter, and anything else. -/
theorem search_refused (f : Fil) (hd : 3 ≤ depth f) (b : Bytes) (h : Wire f b) (es : List Bytes) (hl : es.length = 6)
    (hes : ∀ e ∈ es, ∃ c n k d, Ber.Element c n k d e) (c : Cls) (n : Nat) (k : Bool) (s m rest : Bytes)
    (hm : Ber.Element c n k (es.flatten ++ (b ++ s)) m) : decode Rfc2251.SearchRequest.call.ty (m ++ rest) = none := by
  simp only [decode, (element_of _ _ _ _ _ hm).2 rest, search_none f hd b h es hl hes c n k s m]

/-- The alternative of `protocolOp` for an element `[APPLICATION 3]` is the search request. -/
theorem operation : ∃ a cs t, Rfc2251.LDAPMessage.call.ty = .seq false a cs ∧ a.tags = [⟨.universal, true, 16⟩] ∧
    nth 1 cs = some t ∧ ∀ k d r, decT Rfc2251.SearchRequest.call.ty ⟨.application, k, 3, d, r⟩ = none →
      decT t ⟨.application, k, 3, d, r⟩ = none := by
  refine ⟨_, _, _, rfl, rfl, rfl, fun k d r h => ?_⟩
  show (match decT Rfc2251.SearchRequest.call.ty ⟨.application, k, 3, d, r⟩ with
    | some v => some (Val.alt 3 v)
    | none => none) = none
  rw [h]

/-- **C44.** And so is the LDAP message: message number, search request, and anything else. -/
theorem message_refused (f : Fil) (hd : 3 ≤ depth f) (b : Bytes) (h : Wire f b) (es : List Bytes) (hl : es.length = 6)
    (hes : ∀ e ∈ es, ∃ c n k d, Ber.Element c n k d e) (k : Bool) (s m : Bytes)
    (hm : Ber.Element .application 3 k (es.flatten ++ (b ++ s)) m) (e : Bytes) (he : ∃ c n k d, Ber.Element c n k d e)
    (c : Cls) (n : Nat) (k' : Bool) (s' m' rest : Bytes) (hm' : Ber.Element c n k' (e ++ (m ++ s')) m') :
    decode Rfc2251.LDAPMessage.call.ty (m' ++ rest) = none := by
  obtain ⟨a, cs, t, h1, h2, h3, h4⟩ := operation
  have h5 := h4 k _ m (search_none f hd b h es hl hes .application 3 k s m)
  have h6 := seq_none a _ h2 cs t 1 h3 [e] rfl
    (fun e' he' => by
      obtain ⟨c, n, k, d, hd⟩ := he
      rw [List.mem_singleton.1 he']
      exact ⟨_, element_of _ _ _ _ _ hd⟩)
    m _ (element_of _ _ _ _ _ hm) h5 c n k' s' m'
  simp only [List.flatten_cons, List.flatten_nil, List.append_nil] at h6
  rw [h1]
  simp only [decode, (element_of _ _ _ _ _ hm').2 rest, h6]

/-! ## Examples -/

theorem short (c : Cls) (k : Bool) (n : Nat) (d : Bytes) (hn : n ≤ 30) (hd : d.length ≤ 127) :
    Ber.Element c n k d (UInt8.ofNat (Der.classBits c + (if k then 32 else 0) + n) :: UInt8.ofNat d.length :: d) :=
  ⟨_, _, .low hn, .short hd, rfl⟩

/-- `(&(!(cn=*)))`: read. -/
example : Wire (.and [.not (.leaf 4 (.octets [99, 110]))]) [0xA0, 6, 0xA2, 4, 0x87, 2, 99, 110] ∧
    depth (.and [.not (.leaf 4 (.octets [99, 110]))]) = 2 := by
  refine ⟨?_, by decide⟩
  simp only [Wire]
  refine ⟨[[0xA2, 4, 0x87, 2, 99, 110]], ?_, short .context true 0 [0xA2, 4, 0x87, 2, 99, 110] (by decide) (by decide)⟩
  simp only [Wires, Wire]
  refine ⟨⟨[0x87, 2, 99, 110], ?_, short .context true 2 [0x87, 2, 99, 110] (by decide) (by decide)⟩, trivial⟩
  exact ⟨⟨[99, 110], rfl, _, short .context false 7 [99, 110] (by decide) (by decide), rfl⟩, by decide +kernel⟩

example : decode Rfc2251.Filter.call.ty [0xA0, 6, 0xA2, 4, 0x87, 2, 99, 110] =
    some (.alt 0 (.list (.ofList [.alt 2 (.alt 4 (.octets [99, 110]))])), []) := by decide +kernel

/-- `(!(&(!(cn=*))))`: refused. -/
example : decode Rfc2251.Filter.call.ty [0xA2, 8, 0xA0, 6, 0xA2, 4, 0x87, 2, 99, 110] = none := by decide +kernel

end Filter
end Props
end Verif
