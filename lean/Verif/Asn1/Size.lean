import Verif.Spec.Size
import Verif.Asn1.Ber
import Verif.Asn1.OpenFuel

/-! Lemmas: the decoder makes a value no larger than a constant times the input. -/

namespace Verif
namespace Asn1

theorem octetsOf_le {n k : Nat} (h : n < 256 ^ k) : octetsOf n ≤ k := by
  unfold octetsOf
  split
  · omega
  · rename_i hn
    have : n < 2 ^ (8 * k) := by rw [Nat.pow_mul]; exact h
    have := (Nat.log2_lt hn).2 this
    omega

theorem octetsOf_mono {n m : Nat} (h : n ≤ m) : octetsOf n ≤ octetsOf m := by
  have : m < 256 ^ octetsOf m := by
    unfold octetsOf
    split
    · rename_i hm; subst hm; decide
    · rename_i hm
      have h1 : m.log2 < 8 * (m.log2 / 8 + 1) := by omega
      have := (Nat.log2_lt hm).1 h1
      rwa [Nat.pow_mul] at this
  exact octetsOf_le (by omega)

theorem le_beNat : ∀ (b : Bytes) (acc : Nat), acc ≤ beNat b acc
  | [], acc => by simp [beNat]
  | x :: b, acc => by
    have := le_beNat b (acc * 256 + x.toNat)
    simp only [beNat]; omega

theorem decInt_size (b : Bytes) : octetsOf (decInt b).natAbs ≤ b.length := by
  apply octetsOf_le
  unfold decInt
  split
  · decide
  · rename_i h t
    have hb := beNat_lt (h :: t) 0
    have hl := le_beNat t (0 * 256 + h.toNat)
    simp only [Nat.zero_add, Nat.one_mul] at hb
    have e : beNat (h :: t) 0 = beNat t (0 * 256 + h.toNat) := rfl
    rw [← e] at hl
    generalize beNat (h :: t) 0 = u at *
    simp only
    split
    · simpa using hb
    · generalize 256 ^ (h :: t).length = m at *
      omega

theorem readB128_lt : ∀ (b : Bytes) (acc n k : Nat) (r : Bytes), readB128 b acc = some (n, r) → acc < 256 ^ k →
    ∃ j, 0 < j ∧ b.length = j + r.length ∧ n < 256 ^ (k + j)
  | [], _, _, _, _, h, _ => by simp [readB128] at h
  | x :: b, acc, n, k, r, h, ha => by
    have hx := x.toNat_lt
    simp only [readB128] at h
    split at h
    · simp only [Option.some.injEq, Prod.mk.injEq] at h
      obtain ⟨rfl, rfl⟩ := h
      refine ⟨1, by omega, by simp; omega, ?_⟩
      rw [Nat.pow_succ]; omega
    · obtain ⟨j, h1, h2, h3⟩ := readB128_lt b _ n (k + 1) r h (by rw [Nat.pow_succ]; omega)
      exact ⟨j + 1, by omega, by simp; omega, by rw [show k + (j + 1) = k + 1 + j by omega]; exact h3⟩

theorem readArcs_size : ∀ (fuel : Nat) (b : Bytes) (l : List Nat), readArcs fuel b = some l → arcsSize l ≤ b.length
  | fuel, [], l, h => by
    have : l = [] := by cases fuel <;> simp [readArcs] at h <;> exact h
    subst this; simp [arcsSize]
  | 0, _ :: _, l, h => by simp [readArcs] at h
  | fuel + 1, x :: b, l, h => by
    simp only [readArcs] at h
    split at h
    · simp at h
    · split at h
      · simp at h
      · rename_i n rest hn
        obtain ⟨l', h1, rfl⟩ := Option.map_eq_some_iff.1 h
        obtain ⟨j, h2, h3, h4⟩ := readB128_lt _ _ _ 0 _ hn (by decide)
        have ih := readArcs_size fuel rest l' h1
        have := octetsOf_le h4
        simp only [arcsSize]
        omega

theorem decOid_size {b : Bytes} {l : List Nat} (h : decOid b = some l) : arcsSize l ≤ b.length + 1 := by
  unfold decOid at h
  split at h
  · rename_i l' hl
    have h1 := readArcs_size _ _ _ hl
    cases l' with
    | nil => simp [splitArcs] at h
    | cons x r =>
      simp only [arcsSize] at h1
      have e : ∀ n, n < 256 → octetsOf n ≤ 1 := fun n hn => octetsOf_le (k := 1) (by simpa using hn)
      simp only [splitArcs] at h
      split at h
      · simp at h; subst h
        have := e 0 (by omega)
        simp only [arcsSize]; omega
      · split at h
        · simp at h; subst h
          have := e 1 (by omega)
          have := octetsOf_mono (show x - 40 ≤ x by omega)
          simp only [arcsSize]; omega
        · simp at h; subst h
          have := e 2 (by omega)
          have := octetsOf_mono (show x - 80 ≤ x by omega)
          simp only [arcsSize]; omega
  · simp at h

theorem decAscii_length : ∀ (b : Bytes) (s : List Char), decAscii b = some s → s.length = b.length
  | [], s, h => by simp [decAscii] at h; subst h; rfl
  | x :: b, s, h => by
    simp only [decAscii] at h
    split at h
    · obtain ⟨s', h1, rfl⟩ := Option.map_eq_some_iff.1 h
      simp [decAscii_length b s' h1]
    · simp at h

theorem decLatin1_length : ∀ (b : Bytes), (decLatin1 b).length = b.length
  | [] => rfl
  | x :: b => by simp [decLatin1, decLatin1_length b]

theorem decChars_length (head : Bytes → Option (Char × Bytes)) : ∀ (fuel : Nat) (b : Bytes) (s : List Char),
    decChars head fuel b = some s → s.length ≤ fuel
  | fuel, [], s, h => by
    have : s = [] := by cases fuel <;> simp [decChars] at h <;> exact h
    subst this; simp
  | 0, _ :: _, s, h => by simp [decChars] at h
  | fuel + 1, x :: b, s, h => by
    simp only [decChars] at h
    split at h
    · simp at h
    · obtain ⟨s', h1, rfl⟩ := Option.map_eq_some_iff.1 h
      have := decChars_length head fuel _ s' h1
      simp; omega

theorem decStr_length {k : CharKind} {b : Bytes} {s : List Char} (h : decStr k b = some s) : s.length ≤ b.length := by
  cases k with
  | ascii => exact Nat.le_of_eq (decAscii_length b s h)
  | latin1 => simp [decStr] at h; subst h; exact Nat.le_of_eq (decLatin1_length b)
  | utf8 => exact decChars_length _ _ _ _ h
  | utf16be => exact decChars_length _ _ _ _ h
  | utf32be => exact decChars_length _ _ _ _ h

theorem decPrim_size {k : Prim} {b : Bytes} {v : Val} (h : decPrim k b = some v) : v.size ≤ b.length + 2 := by
  have i := decInt_size b
  cases k with
  | boolean =>
    simp only [decPrim] at h
    split at h
    · rename_i hb; simp at h; subst h hb; decide
    · split at h
      · rename_i hb; simp at h; subst h hb; decide
      · simp at h
  | integer => simp [decPrim] at h; subst h; simp only [Val.size]; omega
  | enumerated => simp [decPrim] at h; subst h; simp only [Val.size]; omega
  | bitString =>
    obtain ⟨bs, h1, rfl⟩ := Option.map_eq_some_iff.1 h
    cases b with
    | nil => simp [decBits] at h1
    | cons p b =>
      simp only [decBits] at h1
      split at h1
      · simp at h1
      · split at h1
        · simp at h1
        · simp at h1; subst h1
          simp only [Val.size, List.length_take, List.length_cons]
          omega
  | octetString => simp [decPrim] at h; subst h; simp only [Val.size]; omega
  | null =>
    simp only [decPrim] at h
    split at h
    · simp at h; subst h; simp [Val.size]
    · simp at h
  | oid =>
    obtain ⟨l, h1, rfl⟩ := Option.map_eq_some_iff.1 h
    have := decOid_size h1
    simp only [Val.size]; omega
  | any => simp [decPrim] at h; subst h; simp only [Val.size]; omega
  | str c =>
    obtain ⟨s, h1, rfl⟩ := Option.map_eq_some_iff.1 h
    have := decStr_length h1
    simp only [Val.size]; omega
  | utcTime =>
    obtain ⟨s, h1, rfl⟩ := Option.map_eq_some_iff.1 h
    have := decAscii_length _ _ h1
    simp only [Val.size]; omega
  | generalizedTime =>
    obtain ⟨s, h1, rfl⟩ := Option.map_eq_some_iff.1 h
    have := decAscii_length _ _ h1
    simp only [Val.size]; omega

theorem decPrimT_size {k : Prim} {a : Attrs} {x : TLV} {v : Val} (h : decPrimT k a x = some v) (hp : Proper x) :
    v.size ≤ x.raw.length + 1 := by
  unfold Proper at hp
  simp only [decPrimT] at h
  split at h
  · split at h
    · split at h <;> simp at h <;> subst h <;> simp only [Val.size] <;> omega
    · simp at h; subst h; simp only [Val.size]; omega
  · split at h
    · simp at h
    · rename_i y hy
      obtain ⟨h1, h2⟩ := unwrap_proper _ x y hy hp
      unfold Proper at h1
      split at h
      · simp at h
      · split at h
        · simp at h
        · rename_i w hw
          split at h
          · simp at h; subst h
            have := decPrim_size hw
            omega
          · simp at h

/-- Octets of a list of elements. -/
def total : List TLV → Nat
  | [] => 0
  | x :: xs => x.raw.length + total xs

theorem total_eq : ∀ xs : List TLV, total xs = (xs.map TLV.raw).flatten.length
  | [] => rfl
  | x :: xs => by simp [total, total_eq xs]

/-- An element has at least two octets besides its contents. -/
def Framed (x : TLV) : Prop := x.content.length + 2 ≤ x.raw.length

theorem Framed.proper {x : TLV} (h : Framed x) : Proper x := by
  unfold Framed at h
  unfold Proper
  omega

theorem readTLV_framed {b : Bytes} {x : TLV} {r : Bytes} (h : readTLV b = some (x, r)) :
    Framed x ∧ x.raw.length ≤ b.length := by
  refine ⟨?_, (readTLV_proper h).2⟩
  unfold readTLV at h
  split at h
  · simp at h
  · rename_i cls c n r1 ht
    split at h
    · simp at h
    · rename_i len r2 hl
      split at h
      · simp at h
      · rename_i hlen
        simp only [Option.some.injEq, Prod.mk.injEq] at h
        obtain ⟨rfl, _⟩ := h
        obtain ⟨p, hp, hpn, _⟩ := readTag_suffix _ _ _ _ _ ht
        obtain ⟨q, hq, hqn, _⟩ := readLen_suffix _ _ _ hl
        have h1 : 0 < p.length := List.length_pos_iff.2 hpn
        have h2 : 0 < q.length := List.length_pos_iff.2 hqn
        unfold Framed
        simp only [List.length_take]
        rw [hp, hq]
        simp only [List.length_append]
        omega

theorem parseTLVs_framed : ∀ (fuel : Nat) (b : Bytes) (xs : List TLV), parseTLVs fuel b = some xs → ∀ x ∈ xs, Framed x
  | _, [], xs, h => by
    simp [parseTLVs] at h; subst h; simp
  | 0, _ :: _, xs, h => by simp [parseTLVs] at h
  | fuel + 1, b :: bs, xs, h => by
    simp only [parseTLVs] at h
    split at h
    · simp at h
    · rename_i x rest hx
      split at h
      · simp at h
      · rename_i ys hys
        simp at h; subst h
        intro y hy
        rcases List.mem_cons.1 hy with rfl | hy
        · exact (readTLV_framed hx).1
        · exact parseTLVs_framed fuel rest ys hys y hy

theorem unwrap_framed : ∀ (ts : List Tag) (x y : TLV), unwrap ts x = some y → Framed x →
    Framed y ∧ y.raw.length ≤ x.raw.length
  | [], _, _, h, _ => by simp [unwrap] at h
  | [t], x, y, h, hp => by
    simp only [unwrap] at h
    split at h
    · simp at h; subst h; exact ⟨hp, Nat.le_refl _⟩
    · simp at h
  | t :: t' :: ts, x, y, h, hp => by
    simp only [unwrap] at h
    split at h
    · split at h
      · rename_i z r hz
        obtain ⟨h1, h2⟩ := readTLV_framed hz
        obtain ⟨h3, h4⟩ := unwrap_framed (t' :: ts) z y h h1
        unfold Framed at hp
        exact ⟨h3, by omega⟩
      · simp at h
    · simp at h

theorem innerItems_framed {a : Attrs} {x : TLV} {xs : List TLV} (h : innerItems a x = some xs) : ∀ y ∈ xs, Framed y := by
  simp only [innerItems] at h
  split at h
  · simp at h
  · split at h
    · exact parseTLVs_framed _ _ xs h
    · simp at h

theorem innerItems_total {a : Attrs} {x : TLV} {xs : List TLV} (h : innerItems a x = some xs) (hp : Framed x) :
    total xs + 2 ≤ x.raw.length := by
  simp only [innerItems] at h
  split at h
  · simp at h
  · rename_i y hy
    obtain ⟨h1, h2⟩ := unwrap_framed _ x y hy hp
    unfold Framed at h1
    split at h
    · have := items_ber _ _ _ h
      rw [total_eq, ← this]; omega
    · simp at h

theorem total_apart (p q : TLV → Bool) : ∀ (xs : List TLV), (∀ x, p x = true → q x = false) →
    total (xs.filter p) + total (xs.filter q) ≤ total xs
  | [], _ => by simp [total]
  | x :: xs, h => by
    have ih := total_apart p q xs h
    cases hp : p x <;> cases hq : q x <;> simp only [List.filter, hp, hq, total] <;> try omega
    rw [h x hp] at hq; cases hq

theorem total_last {α : Type} (g : TLV → Option α) (sz : α → Nat) (K : Nat) : ∀ (xs : List TLV) (ws : List α) (w : α),
    mapOpt g xs = some ws → ws.getLast? = some w → (∀ x ∈ xs, ∀ v, g x = some v → sz v ≤ K * x.raw.length) →
    sz w ≤ K * total xs := by
  intro xs ws w h hl hg
  obtain ⟨y, h3, h4⟩ := mapOpt_mem h w (List.mem_of_getLast? hl)
  have h5 := hg y h3 w h4
  refine Nat.le_trans h5 (Nat.mul_le_mul_left _ ?_)
  clear h hg h5
  induction xs with
  | nil => simp at h3
  | cons x xs ih =>
    rcases List.mem_cons.1 h3 with rfl | h3
    · simp [total]
    · have := ih h3; simp only [total]; omega

theorem missing_size {f : Field} {t : Ty} {cs : Comps} {v : Val} (h : f.mode.missing = some v) :
    v.size + cs.blank ≤ (Comps.cons f t cs).blank := by
  simp only [Comps.blank]
  cases hm : f.mode with
  | req => simp [hm, Mode.missing] at h
  | opt => simp [hm, Mode.missing] at h; subst h; simp [Val.size]
  | dflt d => simp [hm, Mode.missing] at h; subst h; simp

theorem missing_tail (f : Field) (t : Ty) (cs : Comps) : cs.blank ≤ (Comps.cons f t cs).blank := by
  simp only [Comps.blank]; omega

theorem mapOpt_size {g : TLV → Option Val} {K : Nat} : ∀ (xs : List TLV) (vs : List Val), mapOpt g xs = some vs →
    (∀ x ∈ xs, ∀ v, g x = some v → v.size ≤ K * x.raw.length) → (Vals.ofList vs).size ≤ K * total xs
  | [], vs, h, _ => by simp [mapOpt] at h; subst h; simp [Vals.ofList, Vals.size]
  | x :: xs, vs, h, hg => by
    simp only [mapOpt] at h
    split at h
    · rename_i v vs' h1 h2
      simp at h; subst h
      have e1 := hg x (by simp) v h1
      have e2 := mapOpt_size xs vs' h2 (fun y hy => hg y (by simp [hy]))
      simp only [Vals.ofList, Vals.size, total, Nat.mul_add]; omega
    · simp at h

mutual
/-- The value made of one element. -/
theorem decT_size {K : Nat} (hK : 2 ≤ K) : ∀ (t : Ty) (x : TLV) (v : Val), t.each (Ty.within K) = true → t.setsOk = true →
    Framed x → decT t x = some v → v.size ≤ K * x.raw.length
  | .prim k a, x, v, _, _, hp, h => by
    have h1 := decPrimT_size h hp.proper
    unfold Framed at hp
    have : 2 * x.raw.length ≤ K * x.raw.length := Nat.mul_le_mul_right _ hK
    omega
  | .seq s a cs, x, v, hf, hs, hp, h => by
    simp only [Ty.each, Bool.and_eq_true, Ty.within, decide_eq_true_eq] at hf
    simp only [Ty.setsOk, Bool.and_eq_true] at hs
    simp only [decT] at h
    split at h
    · simp at h
    · rename_i xs hxs
      have hw := innerItems_framed hxs
      have ht := innerItems_total hxs hp
      split at h
      · simp at h
      · rename_i vs hvs
        split at h
        · simp only [Option.some.injEq] at h
          subst h
          have key : vs.size ≤ K * total xs + cs.blank := by
            cases s with
            | true =>
              simp only [if_true] at hvs
              split at hvs
              · simp only [Bool.not_true, Bool.false_or] at hs
                exact decSet_size hK cs xs vs hf.2 hs.2 hs.1 (fun y hy => hw y hy) hvs
              · simp at hvs
            | false =>
              simp only [Bool.false_eq_true, if_false] at hvs
              exact decComps_size hK cs xs vs hf.2 hs.2 (fun y hy => hw y hy) hvs
          have := Nat.mul_le_mul_left K ht
          rw [Nat.mul_add] at this
          simp only [Val.size]
          have := hf.1
          omega
        · simp at h
  | .of s a t, x, v, hf, hs, hp, h => by
    simp only [Ty.each, Bool.and_eq_true] at hf
    simp only [Ty.setsOk] at hs
    simp only [decT] at h
    split at h
    · simp at h
    · rename_i xs hxs
      have hw := innerItems_framed hxs
      have ht := innerItems_total hxs hp
      split at h
      · simp at h
      · rename_i vs hvs
        simp only [Option.some.injEq] at h
        subst h
        have e := mapOpt_size xs vs hvs (fun y hy w hw' => decT_size hK t y w hf.2 hs (hw y hy) hw')
        have := Nat.mul_le_mul_left K ht
        rw [Nat.mul_add] at this
        simp only [Val.size]
        omega
  | .choice a cs, x, v, hf, hs, hp, h => by
    simp only [Ty.each, Bool.and_eq_true] at hf
    simp only [Ty.setsOk] at hs
    simp only [decT] at h
    split at h
    · exact decAlt_size hK cs 0 x v hf.2 hs hp h
    · split at h
      · simp at h
      · rename_i y hy
        obtain ⟨h1, h2⟩ := unwrap_framed _ x y hy hp
        split at h
        · simp at h
        · rename_i z r hz
          obtain ⟨h3, h4⟩ := readTLV_framed hz
          have e := decAlt_size hK cs 0 z v hf.2 hs h3 h
          unfold Framed at h1
          exact Nat.le_trans e (Nat.mul_le_mul_left _ (by omega))
  | .bad _, x, v, _, _, _, h => by simp [decT] at h
theorem decComps_size {K : Nat} (hK : 2 ≤ K) : ∀ (cs : Comps) (xs : List TLV) (vs : Vals), cs.each (Ty.within K) = true →
    cs.setsOk = true → (∀ x ∈ xs, Framed x) → decComps cs xs = some vs → vs.size ≤ K * total xs + cs.blank
  | .nil, [], vs, _, _, _, h => by
    simp only [decComps, Option.some.injEq] at h
    subst h
    simp [Vals.size]
  | .nil, _ :: _, vs, _, _, _, h => by simp [decComps] at h
  | .cons f t cs, [], vs, hf, hs, hp, h => by
    simp only [Comps.each, Bool.and_eq_true] at hf
    simp only [Comps.setsOk, Bool.and_eq_true] at hs
    simp only [decComps] at h
    split at h
    · rename_i v ws hv hws
      simp only [Option.some.injEq] at h
      subst h
      have := decComps_size hK cs [] ws hf.2 hs.2 hp hws
      have := missing_size (t := t) (cs := cs) hv
      simp only [Vals.size]; omega
    · simp at h
  | .cons f t cs, x :: xs, vs, hf, hs, hp, h => by
    simp only [Comps.each, Bool.and_eq_true] at hf
    simp only [Comps.setsOk, Bool.and_eq_true] at hs
    simp only [decComps] at h
    split at h
    · split at h
      · rename_i v ws hv hws
        simp only [Option.some.injEq] at h
        subst h
        have := decT_size hK t x v hf.1 hs.1 (hp x (by simp)) hv
        have := decComps_size hK cs xs ws hf.2 hs.2 (fun y hy => hp y (by simp [hy])) hws
        have := missing_tail f t cs
        simp only [Vals.size, total, Nat.mul_add]; omega
      · simp at h
    · split at h
      · rename_i v ws hv hws
        simp only [Option.some.injEq] at h
        subst h
        have := decComps_size hK cs (x :: xs) ws hf.2 hs.2 hp hws
        have := missing_size (t := t) (cs := cs) hv
        simp only [Vals.size]; omega
      · simp at h
theorem decSet_size {K : Nat} (hK : 2 ≤ K) : ∀ (cs : Comps) (xs : List TLV) (vs : Vals), cs.each (Ty.within K) = true →
    cs.setsOk = true → cs.pairOk = true → (∀ x ∈ xs, Framed x) → decSet cs xs = some vs → vs.size ≤ K * total xs + cs.blank
  | .nil, xs, vs, _, _, _, _, h => by
    simp only [decSet, Option.some.injEq] at h
    subst h
    simp [Vals.size]
  | .cons f t cs, xs, vs, hf, hs, ha, hp, h => by
    simp only [Comps.each, Bool.and_eq_true] at hf
    simp only [Comps.setsOk, Bool.and_eq_true] at hs
    simp only [Comps.pairOk, Bool.and_eq_true] at ha
    simp only [decSet] at h
    split at h
    · rename_i ws us hws hus
      rw [← decSet_filter cs.matches cs xs (fun _ h => h)] at hus
      have ih := decSet_size hK cs _ us hf.2 hs.2 ha.2 (fun x hx => hp x (List.mem_filter.1 hx).1) hus
      have ap := Nat.mul_le_mul_left K (total_apart t.matches cs.matches xs (fun x hx => Ty.disjointAll_matches t x cs ha.1 hx))
      rw [Nat.mul_add] at ap
      have := missing_tail f t cs
      split at h
      · rename_i w hw
        simp only [Option.some.injEq] at h
        subst h
        have := total_last (decT t) Val.size K _ ws w hws hw
          (fun y hy v hv => decT_size hK t y v hf.1 hs.1 (hp y (List.mem_filter.1 hy).1) hv)
        simp only [Vals.size]; omega
      · split at h
        · rename_i w hm
          simp only [Option.some.injEq] at h
          subst h
          have := missing_size (t := t) (cs := cs) hm
          simp only [Vals.size]; omega
        · simp at h
    · simp at h
theorem decAlt_size {K : Nat} (hK : 2 ≤ K) : ∀ (cs : Comps) (i : Nat) (x : TLV) (v : Val), cs.each (Ty.within K) = true →
    cs.setsOk = true → Framed x → decAlt cs i x = some v → v.size ≤ K * x.raw.length
  | .nil, i, x, v, _, _, _, h => by simp [decAlt] at h
  | .cons f t cs, i, x, v, hf, hs, hp, h => by
    simp only [Comps.each, Bool.and_eq_true] at hf
    simp only [Comps.setsOk, Bool.and_eq_true] at hs
    simp only [decAlt] at h
    split at h
    · split at h
      · rename_i w hw
        simp only [Option.some.injEq] at h
        subst h
        exact decT_size hK t x w hf.1 hs.1 hp hw
      · simp at h
    · exact decAlt_size hK cs (i + 1) x v hf.2 hs.2 hp h
end

end Asn1
end Verif
