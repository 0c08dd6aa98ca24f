import Verif.Asn1.BerCodec
import Verif.Asn1.BerRead
import Verif.Spec.Basic

/-! # Reading elements with definite and indefinite lengths -/

namespace Verif
namespace Asn1

open Der

/-- The octets are read as this one element, whatever follows. -/
def IsElt (b : Bytes) (x : Elt) : Prop :=
  b ≠ [] ∧ x.tlv.raw = b ∧ ∀ fuel rest, b.length < fuel → readE fuel (b ++ rest) = some (x, rest)

theorem readLen_indef (r : Bytes) (h : r.head? = some 128) : readLen r = none := by
  cases r with
  | nil => simp at h
  | cons x r =>
    simp only [List.head?_cons, Option.some.injEq] at h
    subst h
    simp [readLen]

theorem readE_definite (fuel : Nat) (b : Bytes) (x : TLV) (r : Bytes) (h : readTLV b = some (x, r)) :
    readE (fuel + 1) b = some (⟨x, false⟩, r) := by
  have h' := h
  unfold readTLV at h
  cases ht : readTag b with
  | none => simp [ht] at h
  | some q =>
    obtain ⟨cls, c, n, r0⟩ := q
    simp only [ht] at h
    have hh : r0.head? ≠ some 128 := by
      intro h0
      simp [readLen_indef r0 h0] at h
    simp only [readE, ht, if_neg hh, h']

theorem isElt_of_isTLV {b : Bytes} {x : TLV} (h : IsTLV b x) : IsElt b ⟨x, false⟩ := by
  refine ⟨h.1, h.raw, fun fuel rest hf => ?_⟩
  cases fuel with
  | zero => omega
  | succ fuel => exact readE_definite fuel _ _ _ (h.2 rest)

theorem isElt_read {b : Bytes} {x : Elt} (h : IsElt b x) (rest : Bytes) : readElt (b ++ rest) = some (x, rest) :=
  h.2.2 _ _ (by simp; omega)

theorem readE_zeros (fuel : Nat) (r : Bytes) : readE (fuel + 1) (0 :: 0 :: r) = some (⟨⟨.universal, false, 0, [], [0, 0]⟩, false⟩, r) := by
  apply readE_definite
  unfold readTLV
  simp only [readTag, readLen]
  simp [Cls.ofBits]
  have e : r.length + 1 + 1 - r.length = 2 := by omega
  rw [e]; rfl

/-- An element other than end-of-octets does not look like it. -/
theorem isElt_not_end {b : Bytes} {x : Elt} (h : IsElt b x) (hb : b ≠ [0, 0]) (rest : Bytes) : (b ++ rest).take 2 ≠ [0, 0] := by
  intro h2
  match b, h, hb, h2 with
  | [], h, _, _ => exact h.1 rfl
  | [y], h, _, h2 =>
    have hy : y = 0 := by
      cases rest <;> simp at h2
      exact h2.1
    subst hy
    have := h.2.2 2 [] (by simp)
    simp [readE, readTag, readTLV, readLen] at this
  | y :: z :: b, h, hb, h2 =>
    simp only [List.cons_append, List.take_succ_cons, List.take_zero, List.cons.injEq, and_true] at h2
    obtain ⟨rfl, rfl⟩ := h2
    have := h.2.2 (b.length + 2 + 1) [] (by simp)
    simp only [List.append_nil] at this
    rw [readE_zeros] at this
    simp only [Option.some.injEq, Prod.mk.injEq] at this
    exact hb (by rw [this.2])

theorem untilEnd_of : ∀ (es : List Bytes) (fuel : Nat) (rest : Bytes), (∀ e ∈ es, ∃ x, IsElt e x) → (∀ e ∈ es, e ≠ [0, 0]) →
    es.flatten.length + 1 < fuel → untilEnd fuel (es.flatten ++ 0 :: 0 :: rest) = some (es.flatten, rest)
  | [], fuel, rest, _, _, hf => by
    cases fuel with
    | zero => omega
    | succ fuel => simp [untilEnd]
  | e :: es, fuel, rest, h, h0, hf => by
    obtain ⟨x, hx⟩ := h e (List.mem_cons_self ..)
    have hl : 0 < e.length := List.length_pos_iff.2 hx.1
    simp only [List.flatten_cons, List.length_append] at hf
    cases fuel with
    | zero => omega
    | succ fuel =>
      simp only [List.flatten_cons, List.append_assoc, untilEnd]
      rw [if_neg (isElt_not_end hx (h0 e (List.mem_cons_self ..)) _), hx.2.2 fuel _ (by omega)]
      simp only []
      rw [untilEnd_of es fuel rest (fun e he => h e (List.mem_cons_of_mem _ he)) (fun e he => h0 e (List.mem_cons_of_mem _ he)) (by omega)]
      simp only [hx.2.1]

theorem isElt_indefinite (c : Cls) (n : Nat) (k : Bool) (i : Bytes) (es : List Bytes) (hi : Ber.Identifier c k n i)
    (h : ∀ e ∈ es, ∃ x, IsElt e x) (h0 : ∀ e ∈ es, e ≠ Basic.eoc) :
    IsElt (i ++ [128] ++ es.flatten ++ Basic.eoc) ⟨⟨c, k, n, es.flatten, i ++ [128] ++ es.flatten ++ Basic.eoc⟩, true⟩ := by
  refine ⟨by simp, rfl, fun fuel rest hf => ?_⟩
  cases fuel with
  | zero => omega
  | succ fuel =>
    have e1 : i ++ [128] ++ es.flatten ++ Basic.eoc ++ rest = i ++ (128 :: (es.flatten ++ 0 :: 0 :: rest)) := by
      simp [Basic.eoc]
    have hne : 0 < i.length := List.length_pos_iff.2 (readTag_of c k n i [] hi).2
    rw [readE, e1, (readTag_of c k n i _ hi).1]
    simp only [List.head?_cons, if_true, List.tail_cons]
    rw [untilEnd_of es fuel rest h h0 (by simp [Basic.eoc] at hf; simp; omega)]
    simp only [Option.some.injEq, Prod.mk.injEq, and_true, Elt.mk.injEq, TLV.mk.injEq, true_and]
    rw [← e1, List.length_append, Nat.add_sub_cancel, List.take_left]

theorem isElt_complete (b : Bytes) (h : Basic.Complete b) : ∃ x, IsElt b x := by
  induction h with
  | definite c n k contents b h => exact ⟨_, isElt_of_isTLV (element_of _ _ _ _ _ h)⟩
  | indefinite c n k i es hi _ h0 ih => exact ⟨_, isElt_indefinite c n k i es hi ih h0⟩

theorem element_isElt (c : Cls) (n : Nat) (k ind : Bool) (contents b : Bytes) (h : Basic.Element c n k ind contents b) :
    IsElt b ⟨⟨c, k, n, contents, b⟩, ind⟩ := by
  cases ind with
  | false => exact isElt_of_isTLV (element_of _ _ _ _ _ h)
  | true =>
    simp only [Basic.Element, if_true] at h
    obtain ⟨i, es, h1, h2, h3, rfl, rfl⟩ := h
    exact isElt_indefinite c n k i es h1 (fun e he => isElt_complete e (h2 e he)) h3

/-! ## Lists of elements -/

theorem parseElts_of : ∀ (es : List Bytes) (xs : List Elt) (fuel : Nat), all2 IsElt es xs → es.flatten.length ≤ fuel →
    parseElts fuel es.flatten = some xs
  | [], [], fuel, _, _ => by cases fuel <;> rfl
  | e :: es, x :: xs, fuel, ⟨h1, h2⟩, hf => by
    simp only [List.flatten_cons, List.length_append] at hf ⊢
    have hr := isElt_read h1 es.flatten
    cases e with
    | nil => exact absurd rfl h1.1
    | cons y e =>
      cases fuel with
      | zero => simp at hf
      | succ fuel =>
        simp only [List.cons_append] at hr ⊢
        simp only [parseElts, hr]
        rw [parseElts_of es xs fuel h2 (by simp only [List.length_cons] at hf; omega)]
  | [], _ :: _, _, h, _ => h.elim
  | _ :: _, [], _, h, _ => h.elim

theorem elts_of (es : List Bytes) (xs : List Elt) (h : all2 IsElt es xs) : elts es.flatten = some xs :=
  parseElts_of es xs _ h (Nat.le_refl _)

theorem elts_one {b : Bytes} {x : Elt} (h : IsElt b x) : elts b = some [x] := by
  have := elts_of [b] [x] ⟨h, trivial⟩
  simpa using this

theorem inner_definite {x : Elt} {b junk : Bytes} {y : Elt} (hx : x.indef = false) (hc : x.tlv.content = b ++ junk) (h : IsElt b y) :
    x.inner = some y := by
  simp [Elt.inner, hx, hc, isElt_read h junk]

theorem inner_indefinite {x : Elt} {b : Bytes} {y : Elt} (hx : x.indef = true) (hc : x.tlv.content = b) (h : IsElt b y) :
    x.inner = some y := by
  simp [Elt.inner, hx, hc, elts_one h]

/-! ## What was read -/

theorem readE_raw : ∀ (fuel : Nat),
    (∀ b x r, readE fuel b = some (x, r) → b = x.tlv.raw ++ r ∧
      Basic.Element x.tlv.cls x.tlv.num x.tlv.constructed x.indef x.tlv.content x.tlv.raw) ∧
    (∀ b c r, untilEnd fuel b = some (c, r) → ∃ es : List Bytes, c = es.flatten ∧ b = c ++ Basic.eoc ++ r ∧
      (∀ e ∈ es, Basic.Complete e) ∧ ∀ e ∈ es, e ≠ Basic.eoc)
  | 0 => ⟨by simp [readE], by simp [untilEnd]⟩
  | fuel + 1 => by
    obtain ⟨ih1, ih2⟩ := readE_raw fuel
    refine ⟨fun b x r h => ?_, fun b c r h => ?_⟩
    · simp only [readE] at h
      cases ht : readTag b with
      | none => simp [ht] at h
      | some q =>
        obtain ⟨cls, k, n, r0⟩ := q
        simp only [ht] at h
        split at h
        · rename_i h0
          cases hu : untilEnd fuel r0.tail with
          | none => simp [hu] at h
          | some q =>
            obtain ⟨content, rest⟩ := q
            simp only [hu, Option.some.injEq, Prod.mk.injEq] at h
            obtain ⟨rfl, rfl⟩ := h
            obtain ⟨es, e1, e2, e3, e4⟩ := ih2 _ _ _ hu
            obtain ⟨i, hi, hb⟩ := readTag_ber b cls k n r0 ht
            have hr0 : r0 = 128 :: r0.tail := by
              cases r0 with
              | nil => simp at h0
              | cons y r0 => simp at h0; simp [h0]
            have e : b = (i ++ [128] ++ content ++ Basic.eoc) ++ rest := by
              rw [hb, hr0, e2]; simp
            have et : b.take (b.length - rest.length) = i ++ [128] ++ content ++ Basic.eoc := by
              rw [e, List.length_append, Nat.add_sub_cancel, List.take_left]
            simp only [et]
            refine ⟨e, ?_⟩
            simp only [Basic.Element, if_true]
            exact ⟨i, es, hi, e3, e4, e1, rfl⟩
        · cases hv : readTLV b with
          | none => simp [hv] at h
          | some q =>
            obtain ⟨y, rest⟩ := q
            simp only [hv, Option.some.injEq, Prod.mk.injEq] at h
            obtain ⟨rfl, rfl⟩ := h
            refine ⟨(readTLV_suffix _ _ _ hv).1, ?_⟩
            simp only [Basic.Element, Bool.false_eq_true, if_false]
            exact whole_ber y (readTLV_raw _ _ _ hv)
    · simp only [untilEnd] at h
      split at h
      · rename_i h2
        simp only [Option.some.injEq, Prod.mk.injEq] at h
        obtain ⟨rfl, rfl⟩ := h
        refine ⟨[], rfl, ?_, by simp, by simp⟩
        have := List.take_append_drop 2 b
        rw [h2] at this
        simpa [Basic.eoc] using this.symm
      · rename_i h2
        cases hr : readE fuel b with
        | none => simp [hr] at h
        | some q =>
          obtain ⟨x, r'⟩ := q
          simp only [hr] at h
          cases hu : untilEnd fuel r' with
          | none => simp [hu] at h
          | some q =>
            obtain ⟨content, rest⟩ := q
            simp only [hu, Option.some.injEq, Prod.mk.injEq] at h
            obtain ⟨rfl, rfl⟩ := h
            obtain ⟨g1, g2⟩ := ih1 _ _ _ hr
            obtain ⟨es, e1, e2, e3, e4⟩ := ih2 _ _ _ hu
            refine ⟨x.tlv.raw :: es, by simp [e1], by rw [g1, e2]; simp, ?_, ?_⟩
            · intro e he
              rcases List.mem_cons.1 he with rfl | he
              · cases hi : x.indef with
                | false =>
                  rw [hi] at g2
                  exact .definite _ _ _ _ _ g2
                | true =>
                  rw [hi] at g2
                  simp only [Basic.Element, if_true] at g2
                  obtain ⟨i, es', k1, k2, k3, k4, k5⟩ := g2
                  rw [k5, k4]
                  exact .indefinite _ _ _ _ _ k1 k2 k3
              · exact e3 e he
            · intro e he
              rcases List.mem_cons.1 he with rfl | he
              · intro h0
                apply h2
                rw [g1, h0]
                simp [Basic.eoc]
              · exact e4 e he

/-- The element is what its octets say. -/
def Elt.whole (x : Elt) : Prop := Basic.Element x.tlv.cls x.tlv.num x.tlv.constructed x.indef x.tlv.content x.tlv.raw

theorem readElt_raw (b : Bytes) (x : Elt) (r : Bytes) (h : readElt b = some (x, r)) : b = x.tlv.raw ++ r ∧ x.whole :=
  (readE_raw _).1 _ _ _ h

theorem parseElts_raw : ∀ (fuel : Nat) (b : Bytes) (xs : List Elt), parseElts fuel b = some xs →
    b = (xs.map (·.tlv.raw)).flatten ∧ ∀ x ∈ xs, x.whole
  | fuel, [], xs, h => by
    cases fuel <;> simp [parseElts] at h <;> subst h <;> simp
  | 0, _ :: _, xs, h => by simp [parseElts] at h
  | fuel + 1, y :: b, xs, h => by
    simp only [parseElts] at h
    cases hr : readElt (y :: b) with
    | none => simp [hr] at h
    | some q =>
      obtain ⟨x, r⟩ := q
      simp only [hr] at h
      cases hp : parseElts fuel r with
      | none => simp [hp] at h
      | some ys =>
        simp only [hp, Option.some.injEq] at h
        subst h
        obtain ⟨h1, h2⟩ := readElt_raw _ _ _ hr
        obtain ⟨h3, h4⟩ := parseElts_raw fuel r ys hp
        refine ⟨by rw [h1, h3]; simp, ?_⟩
        intro z hz
        rcases List.mem_cons.1 hz with rfl | hz
        · exact h2
        · exact h4 z hz

theorem elts_raw (b : Bytes) (xs : List Elt) (h : elts b = some xs) : b = (xs.map (·.tlv.raw)).flatten ∧ ∀ x ∈ xs, x.whole :=
  parseElts_raw _ b xs h

end Asn1
end Verif
