import Verif.Spec.Der
import Verif.Asn1.RtLemmas

/-! # The pieces of an encoding: what the encoder writes is what the rules ask for -/

namespace Verif
namespace Der

open Asn1

/-! ## Numbers -/

theorem number_snoc (m : Nat) (b : Octets) (x : UInt8) : number m (b ++ [x]) = number m b * m + x.toNat % m := by
  simp [number, List.foldl_append]

theorem number_beNat (b : Octets) : number 256 b = beNat b 0 := by
  have h : ∀ (b : Octets) (acc : Nat), b.foldl (fun n x => n * 256 + x.toNat % 256) acc = beNat b acc := by
    intro b
    induction b with
    | nil => intro acc; rfl
    | cons x b ih =>
      intro acc
      have := x.toNat_lt
      rw [List.foldl_cons, ih, beNat, Nat.mod_eq_of_lt (by omega)]
  exact h b 0

theorem list_snoc {α : Type} (P : List α → Prop) (h0 : P []) (h1 : ∀ l x, P l → P (l ++ [x])) (l : List α) : P l := by
  have : ∀ l : List α, P l.reverse := by
    intro l
    induction l with
    | nil => exact h0
    | cons x l ih => rw [List.reverse_cons]; exact h1 _ _ ih
  simpa using this l.reverse

theorem uint8_ext (x : UInt8) (n : Nat) (h : x.toNat = n) : x = UInt8.ofNat n := by
  subst h; simp

/-! ## Seven bits per octet -/

theorem b128Hi_unique (hi : Octets) : (∀ x ∈ hi, 128 ≤ x.toNat) → hi.head? ≠ some 128 →
    ∀ fuel, number 128 hi ≤ fuel → hi = b128Hi fuel (number 128 hi) := by
  refine list_snoc (fun hi => (∀ x ∈ hi, 128 ≤ x.toNat) → hi.head? ≠ some 128 →
    ∀ fuel, number 128 hi ≤ fuel → hi = b128Hi fuel (number 128 hi)) ?_ ?_ hi
  · intro _ _ fuel _
    cases fuel <;> rfl
  · intro l x ih hall hhead fuel hf
    have hx : 128 ≤ x.toNat := hall x (by simp)
    have hx' := x.toNat_lt
    have hm : x.toNat % 128 = x.toNat - 128 := by omega
    rw [number_snoc] at *
    have hl : ∀ fuel, number 128 l ≤ fuel → l = b128Hi fuel (number 128 l) := by
      refine ih (fun y hy => hall y (by simp [hy])) ?_
      intro h0
      apply hhead
      cases l with
      | nil => simp at h0
      | cons y l => simpa using h0
    have hn : number 128 l * 128 + x.toNat % 128 ≠ 0 := by
      intro h0
      have h1 : number 128 l = 0 := by omega
      have h2 := hl 0 (by omega)
      rw [show b128Hi 0 (number 128 l) = [] from rfl] at h2
      subst h2
      apply hhead
      simp only [List.nil_append, List.head?_cons, Option.some.injEq]
      exact uint8_ext x 128 (by omega)
    cases fuel with
    | zero => omega
    | succ fuel =>
      rw [b128Hi, if_neg hn]
      have hd : (number 128 l * 128 + x.toNat % 128) / 128 = number 128 l := by omega
      rw [hd, ← hl fuel (by omega)]
      congr 2
      exact uint8_ext _ _ (by omega)

theorem number_b128Hi (fuel : Nat) : ∀ n, n ≤ fuel → number 128 (b128Hi fuel n) = n := by
  induction fuel with
  | zero => intro n h; simp [b128Hi, number]; omega
  | succ fuel ih =>
    intro n h
    rw [b128Hi]
    split
    · rename_i h0; simp [number, h0]
    · rw [number_snoc, ih _ (by omega), toNat_ofNat _ (by omega)]
      omega

theorem b128Hi_high (fuel : Nat) : ∀ n, ∀ x ∈ b128Hi fuel n, 128 ≤ x.toNat := by
  induction fuel with
  | zero => intro n x h; simp [b128Hi] at h
  | succ fuel ih =>
    intro n x h
    rw [b128Hi] at h
    split at h
    · simp at h
    · rcases List.mem_append.1 h with h | h
      · exact ih _ x h
      · simp only [List.mem_singleton] at h
        subst h
        rw [toNat_ofNat _ (by omega)]; omega

theorem b128Hi_first (fuel : Nat) : ∀ n, n ≤ fuel → (b128Hi fuel n).head? ≠ some 128 := by
  intro n h
  by_cases hn : n = 0
  · subst hn; cases fuel <;> simp [b128Hi]
  · obtain ⟨b, bs, hb, h1⟩ := b128Hi_head fuel n h hn
    rw [hb]
    simp only [List.head?_cons, ne_eq, Option.some.injEq]
    rintro rfl
    simp at h1

theorem groups_iff (n : Nat) (g : Octets) : Groups n g ↔ g = b128 n := by
  constructor
  · rintro ⟨hi, lo, rfl, hall, hlo, hhead, hn⟩
    rw [number_snoc] at hn
    have h1 : n / 128 = number 128 hi := by omega
    have h2 : n % 128 = lo.toNat := by omega
    rw [b128, h1, h2, ← b128Hi_unique hi hall hhead n (by omega)]
    simp
  · rintro rfl
    refine ⟨b128Hi n (n / 128), UInt8.ofNat (n % 128), rfl, b128Hi_high _ _, ?_, b128Hi_first _ _ (by omega), ?_⟩
    · rw [toNat_ofNat _ (by omega)]; omega
    · rw [b128, number_snoc, number_b128Hi _ _ (by omega), toNat_ofNat _ (by omega)]
      omega

/-! ## Identifier and length -/

theorem classBits_eq (c : Cls) : classBits c = c.bits * 64 := by cases c <;> rfl

theorem identifier_iff (c : Cls) (k : Bool) (n : Nat) (i : Octets) : Identifier c k n i ↔ i = encTag c k n := by
  constructor
  · intro h
    cases h with
    | low h =>
      have h1 : n < 31 := by omega
      rw [classBits_eq]; simp only [encTag, h1, if_true]
    | high g h hg =>
      rw [groups_iff] at hg
      subst hg
      have h1 : ¬ n < 31 := by omega
      rw [classBits_eq]; simp only [encTag, h1, if_false]
  · rintro rfl
    simp only [encTag]
    rw [← classBits_eq]
    split
    · exact .low (by omega)
    · exact .high _ (by omega) ((groups_iff _ _).2 rfl)

theorem natBytes_unique (s : Octets) : s.head? ≠ some 0 → ∀ fuel, number 256 s ≤ fuel → s = natBytes fuel (number 256 s) := by
  refine list_snoc (fun s => s.head? ≠ some 0 → ∀ fuel, number 256 s ≤ fuel → s = natBytes fuel (number 256 s)) ?_ ?_ s
  · intro _ fuel _
    cases fuel <;> rfl
  · intro l x ih hhead fuel hf
    have hx := x.toNat_lt
    rw [number_snoc] at *
    have hl : ∀ fuel, number 256 l ≤ fuel → l = natBytes fuel (number 256 l) := by
      refine ih ?_
      intro h0
      apply hhead
      cases l with
      | nil => simp at h0
      | cons y l => simpa using h0
    have hn : number 256 l * 256 + x.toNat % 256 ≠ 0 := by
      intro h0
      have h2 := hl 0 (by omega)
      rw [show natBytes 0 (number 256 l) = [] from rfl] at h2
      subst h2
      apply hhead
      simp only [List.nil_append, List.head?_cons, Option.some.injEq]
      exact uint8_ext x 0 (by omega)
    cases fuel with
    | zero => omega
    | succ fuel =>
      rw [natBytes, if_neg hn]
      have hd : (number 256 l * 256 + x.toNat % 256) / 256 = number 256 l := by omega
      rw [hd, ← hl fuel (by omega)]
      congr 2
      exact uint8_ext _ _ (by omega)

theorem natBytes_first (fuel : Nat) : ∀ n, n ≤ fuel → (natBytes fuel n).head? ≠ some 0 := by
  induction fuel with
  | zero => intro n _; simp [natBytes]
  | succ fuel ih =>
    intro n h
    rw [natBytes]
    split
    · simp
    · rename_i hn
      have := ih (n / 256) (by omega)
      cases hb : natBytes fuel (n / 256) with
      | nil =>
        have hv := beNat_natBytes fuel (n / 256) 0 (by omega)
        rw [hb] at hv
        simp only [beNat, Nat.zero_mul, Nat.zero_add] at hv
        simp only [List.nil_append, List.head?_cons, ne_eq, Option.some.injEq]
        intro h0
        have := congrArg UInt8.toNat h0
        rw [toNat_ofNat _ (by omega)] at this
        simp at this
        omega
      | cons y l => rw [hb] at this; simpa using this

theorem number_natBytes (fuel n : Nat) (h : n ≤ fuel) : number 256 (natBytes fuel n) = n := by
  rw [number_beNat, beNat_natBytes _ _ _ h]; simp

theorem length_iff (n : Nat) (l : Octets) : Length n l ↔ encLen n = some l := by
  constructor
  · intro h
    cases h with
    | short h => simp only [encLen]; rw [if_pos (by omega)]
    | long s h hl hh hv =>
      have := natBytes_unique s hh n (by omega)
      rw [hv] at this
      simp only [encLen]
      rw [if_neg (by omega), ← this, if_neg (by omega)]
  · intro h
    simp only [encLen] at h
    split at h
    · simp only [Option.some.injEq] at h; subst h; exact .short (by omega)
    · split at h
      · simp at h
      · simp only [Option.some.injEq] at h; subst h
        exact .long _ (by omega) (by omega) (natBytes_first _ _ (Nat.le_refl _)) (number_natBytes _ _ (Nat.le_refl _))

theorem element_iff (t : Tag) (k isC : Bool) (hk : (t.constructed || isC) = k) (c b : Octets) :
    Element t k c b ↔ tlv t isC c = some b := by
  subst hk
  constructor
  · rintro ⟨i, l, hi, hl, rfl⟩
    rw [identifier_iff] at hi
    rw [length_iff] at hl
    simp [tlv, hl, hi]
  · intro h
    unfold tlv at h
    cases hl : encLen c.length with
    | none => simp [hl] at h
    | some l =>
      simp only [hl, Option.map_some, Option.some.injEq] at h
      subst h
      exact ⟨_, l, (identifier_iff _ _ _ _).2 rfl, (length_iff _ _).2 hl, by simp⟩

/-- The format bits of the tags are as the rules ask for. -/
def fits (k isC : Bool) : TagSet → Bool
  | [] => true
  | t :: ts => ((t.constructed || isC) == k) && ts.all (fun u => u.constructed || isC)

theorem tagged_iff (isC : Bool) : ∀ (ts : TagSet) (k : Bool) (c b : Octets), fits k isC ts = true →
    (Tagged k ts c b ↔ wrap isC ts c = some b)
  | [], _, _, _, _ => by simp [Tagged, wrap, eq_comm]
  | t :: ts, k, c, b, h => by
    simp only [fits, Bool.and_eq_true, beq_iff_eq] at h
    simp only [Tagged, wrap]
    have hts : fits true isC ts = true := by
      cases ts with
      | nil => rfl
      | cons u us =>
        simp only [List.all_cons, Bool.and_eq_true] at h
        simp [fits, h.2.1, h.2.2]
    constructor
    · rintro ⟨e, he, hr⟩
      rw [element_iff t k isC h.1] at he
      rw [he, Option.bind_some]
      exact (tagged_iff isC ts true e b hts).1 hr
    · intro hw
      cases he : tlv t isC c with
      | none => simp [he] at hw
      | some e =>
        rw [he, Option.bind_some] at hw
        exact ⟨e, (element_iff t k isC h.1 c e).2 he, (tagged_iff isC ts true e b hts).2 hw⟩

theorem fits_cons (ts : TagSet) : fits true true ts = true := by
  cases ts <;> simp [fits]

theorem fits_prim (ts : TagSet) (h : primTags ts = true) : fits false false ts = true := by
  cases ts with
  | nil => rfl
  | cons t ts =>
    simp only [primTags, Bool.and_eq_true, Bool.not_eq_true', List.all_eq_true] at h
    simp only [fits, Bool.or_false, Bool.and_eq_true, beq_iff_eq, List.all_eq_true]
    exact ⟨h.1, fun u hu => (h.2 u hu).1⟩

/-! ## Integers -/

theorem number_cons (h : UInt8) (r : Octets) : number 256 (h :: r) = h.toNat * 256 ^ r.length + number 256 r := by
  rw [number_beNat, number_beNat, beNat]
  have e : ∀ (r : Octets) (acc : Nat), beNat r acc = acc * 256 ^ r.length + beNat r 0 := by
    intro r
    induction r with
    | nil => intro acc; simp [beNat]
    | cons x r ih =>
      intro acc
      rw [beNat, ih, beNat, ih (0 * 256 + x.toNat)]
      simp only [List.length_cons, Nat.pow_succ]
      have e1 : (acc * 256 + x.toNat) * 256 ^ r.length = acc * (256 ^ r.length * 256) + x.toNat * 256 ^ r.length := by
        rw [Nat.add_mul, Nat.mul_assoc, Nat.mul_comm 256]
      rw [e1, Nat.zero_mul, Nat.zero_add]; omega
  rw [e]; simp

theorem twos_decInt (c : Octets) : twos c = decInt c := by
  cases c with
  | nil => rfl
  | cons h r =>
    simp only [twos, decInt]
    rw [← number_beNat, number_cons]
    have e : ((h.toNat * 256 ^ r.length + number 256 r : Nat) : Int) = h.toNat * (256 : Int) ^ r.length + number 256 r := by
      rw [Int.natCast_add, Int.natCast_mul, Int.natCast_pow]; rfl
    have e2 : ((256 ^ (h :: r).length : Nat) : Int) = (256 : Int) ^ r.length * 256 := by
      rw [List.length_cons, Int.natCast_pow, Int.pow_succ]; rfl
    by_cases hh : h.toNat < 128
    · rw [if_pos hh, if_pos hh, e]
    · rw [if_neg hh, if_neg hh, e, e2, Int.sub_mul]
      generalize (256 : Int) ^ r.length = p
      omega

theorem pow256_pos (m : Nat) : (0 : Int) < 256 ^ m := Int.pow_pos (by decide)

theorem number_lt (r : Octets) : (number 256 r : Int) < 256 ^ r.length := by
  have h := beNat_lt r 0
  rw [number_beNat]
  have e : ((256 ^ r.length : Nat) : Int) = (256 : Int) ^ r.length := by rw [Int.natCast_pow]; rfl
  rw [← e]
  omega

theorem twos_range (h : UInt8) (r : Octets) : -(128 * 256 ^ r.length) ≤ twos (h :: r) ∧ twos (h :: r) < 128 * 256 ^ r.length := by
  have hl := number_lt r
  have hp := pow256_pos r.length
  have hh := h.toNat_lt
  simp only [twos]
  generalize (256 : Int) ^ r.length = P at *
  generalize (number 256 r) = ρ at *
  split
  · rename_i h1
    have e1 : (h.toNat : Int) * P ≤ 127 * P := Int.mul_le_mul_of_nonneg_right (by omega) (by omega)
    have e2 : (0 : Int) ≤ (h.toNat : Int) * P := Int.mul_nonneg (by omega) (by omega)
    omega
  · rename_i h1
    have e1 : ((h.toNat : Int) - 256) * P ≤ (-1) * P := Int.mul_le_mul_of_nonneg_right (by omega) (by omega)
    have e2 : (-128) * P ≤ ((h.toNat : Int) - 256) * P := Int.mul_le_mul_of_nonneg_right (by omega) (by omega)
    omega

/-- The first nine bits, seen from the number. -/
theorem shortest_iff (h x : UInt8) (r : Octets) :
    shortest (h :: x :: r) ↔ (128 * 256 ^ r.length ≤ twos (h :: x :: r) ∨ twos (h :: x :: r) < -(128 * 256 ^ r.length)) := by
  have hl := number_lt r
  have hp := pow256_pos r.length
  have hh := h.toNat_lt
  have hx := x.toNat_lt
  have e0 : (number 256 (x :: r) : Int) = x.toNat * (256 : Int) ^ r.length + number 256 r := by
    rw [number_cons, Int.natCast_add, Int.natCast_mul, Int.natCast_pow]; rfl
  simp only [twos, shortest, List.length_cons, Int.pow_succ, e0]
  generalize (256 : Int) ^ r.length = P at *
  generalize (number 256 r) = ρ at *
  have ex : ∀ n : Int, (x.toNat : Int) ≤ n → (x.toNat : Int) * P ≤ n * P := fun n hn => Int.mul_le_mul_of_nonneg_right hn (by omega)
  have ex' : ∀ n : Int, n ≤ (x.toNat : Int) → n * P ≤ (x.toNat : Int) * P := fun n hn => Int.mul_le_mul_of_nonneg_right hn (by omega)
  have x0 := ex' 0 (by omega)
  have x1 := ex 255 (by omega)
  by_cases h1 : h.toNat < 128
  · rw [if_pos h1]
    by_cases h0 : h.toNat = 0
    · rw [h0]
      by_cases h2 : x.toNat < 128
      · have := ex 127 (by omega); omega
      · have := ex' 128 (by omega); omega
    · have e1 : (1 : Int) * (P * 256) ≤ (h.toNat : Int) * (P * 256) := Int.mul_le_mul_of_nonneg_right (by omega) (by omega)
      omega
  · rw [if_neg h1]
    by_cases h0 : h.toNat = 255
    · rw [h0]
      by_cases h2 : x.toNat < 128
      · have := ex 127 (by omega); omega
      · have := ex' 128 (by omega); omega
    · have e1 : ((h.toNat : Int) - 256) * (P * 256) ≤ (-2) * (P * 256) := Int.mul_le_mul_of_nonneg_right (by omega) (by omega)
      omega

theorem pow256_mono {a b : Nat} (h : a ≤ b) : (256 : Int) ^ a ≤ 256 ^ b := by
  have h1 := Nat.pow_le_pow_right (n := 256) (by decide) h
  have e : ∀ n : Nat, (256 : Int) ^ n = ((256 ^ n : Nat) : Int) := fun n => by rw [Int.natCast_pow]; rfl
  rw [e, e]
  omega

theorem shortest_length {c c' : Octets} (hc : c ≠ []) (h : twos c = twos c') (hs : shortest c') : c'.length ≤ c.length := by
  match c, c', hc with
  | _ :: _, [], _ => simp
  | _ :: _, [_], _ => simp
  | y :: r, y' :: x :: r', _ =>
    rw [shortest_iff, ← h] at hs
    have hr := twos_range y r
    by_cases hl : (y' :: x :: r').length ≤ (y :: r).length
    · exact hl
    · simp only [List.length_cons] at hl
      have := pow256_mono (a := r.length) (b := r'.length) (by omega)
      omega

theorem number_inj : ∀ (a b : Octets), a.length = b.length → number 256 a = number 256 b → a = b
  | [], [], _, _ => rfl
  | [], _ :: _, h, _ => by simp at h
  | _ :: _, [], h, _ => by simp at h
  | x :: a, y :: b, h, he => by
    simp only [List.length_cons, Nat.add_right_cancel_iff] at h
    rw [number_cons, number_cons, h] at he
    have ha := number_lt a
    have hb := number_lt b
    rw [h] at ha
    have e : (256 : Int) ^ b.length = ((256 ^ b.length : Nat) : Int) := by rw [Int.natCast_pow]; rfl
    rw [e] at ha hb
    have hxy : x.toNat = y.toNat := by
      rcases Nat.lt_trichotomy x.toNat y.toNat with hl | hl | hl
      · have := Nat.mul_le_mul_right (256 ^ b.length) (Nat.succ_le_of_lt hl)
        rw [Nat.succ_mul] at this; omega
      · exact hl
      · have := Nat.mul_le_mul_right (256 ^ b.length) (Nat.succ_le_of_lt hl)
        rw [Nat.succ_mul] at this; omega
    rw [hxy] at he
    rw [number_inj a b h (by omega), UInt8.toNat_inj.1 hxy]

theorem twos_inj (a b : Octets) (ha : a ≠ []) (hl : a.length = b.length) (h : twos a = twos b) : a = b := by
  match a, b, ha with
  | x :: a, [], _ => simp at hl
  | x :: a, y :: b, _ =>
    refine number_inj _ _ hl ?_
    rw [twos_decInt, twos_decInt] at h
    simp only [decInt] at h
    rw [← number_beNat, ← number_beNat, hl] at h
    have h1 := number_lt (x :: a)
    have h2 := number_lt (y :: b)
    rw [hl] at h1
    have e : ((256 ^ (y :: b).length : Nat) : Int) = (256 : Int) ^ (y :: b).length := by rw [Int.natCast_pow]; rfl
    rw [e] at h
    split at h <;> split at h <;> omega

/-- Contents octets of an integer are determined by it. -/
theorem integer_unique {c c' : Octets} (hc : c ≠ []) (hc' : c' ≠ []) (h : twos c = twos c') (hs : shortest c) (hs' : shortest c') :
    c = c' := by
  refine twos_inj c c' hc (Nat.le_antisymm ?_ ?_) h
  · exact shortest_length hc' h.symm hs
  · exact shortest_length hc h hs'

theorem pow2_256 (m : Nat) : 2 ^ (8 * m + 7) = 128 * 256 ^ m := by
  rw [Nat.pow_add, Nat.pow_mul, Nat.mul_comm]

theorem le_bitLen (n : Nat) (hn : n ≠ 0) : 2 ^ (bitLen n - 1) ≤ n := by
  unfold bitLen
  rw [if_neg hn]
  exact Nat.log2_self_le hn

/-- C34: the encoder writes an integer in as few octets as possible exactly if it is not an edge. -/
theorem encInt_shortest (v : Int) : shortest (encInt v) ↔ notEdge v := by
  have ht : twos (encInt v) = v := by rw [twos_decInt, decInt_encInt]
  have hlen : (encInt v).length = bitLen v.natAbs / 8 + 1 := by simp [encInt, beBytes_length]
  have hlt := bitLen_lt v.natAbs
  have e : ∀ m : Nat, (256 : Int) ^ m = ((256 ^ m : Nat) : Int) := fun n => by rw [Int.natCast_pow]; rfl
  match hc : encInt v with
  | [] => exact absurd hc (encInt_ne_nil v)
  | [h] =>
    rw [hc] at hlen ht
    simp only [List.length_cons, List.length_nil] at hlen
    simp only [shortest, true_iff]
    intro m hm
    have hle : (256 : Int) ^ 0 ≤ 256 ^ m := pow256_mono (by omega)
    have h8 : bitLen v.natAbs ≤ 7 := by omega
    have h9 : 2 ^ bitLen v.natAbs ≤ 2 ^ 7 := Nat.pow_le_pow_right (by decide) h8
    simp at hle
    omega
  | h :: x :: r =>
    rw [hc] at hlen ht
    simp only [List.length_cons] at hlen
    rw [shortest_iff, ht]
    have hn : v.natAbs ≠ 0 := by
      intro h0
      rw [h0] at hlen
      simp [bitLen] at hlen
    have h1 := le_bitLen _ hn
    have h2 : 2 ^ (8 * r.length + 7) ≤ 2 ^ (bitLen v.natAbs - 1) := Nat.pow_le_pow_right (by decide) (by omega)
    rw [pow2_256] at h2
    rw [e]
    constructor
    · intro hs m hm
      rw [e] at hm
      have hm' : v.natAbs = 128 * 256 ^ m := by omega
      have hge : r.length + 1 ≤ m := by
        rcases Nat.lt_or_ge m (r.length + 1) with hlt | hge
        · have := Nat.pow_le_pow_right (n := 256) (by decide) (show m ≤ r.length by omega)
          omega
        · exact hge
      -- too many octets would be needed
      have h3 : 2 ^ (8 * m + 7) < 2 ^ bitLen v.natAbs := by rw [pow2_256, ← hm']; exact hlt
      have h4 : 8 * m + 7 < bitLen v.natAbs := (Nat.pow_lt_pow_iff_right (by decide)).1 h3
      omega
    · intro hne
      have := hne r.length
      rw [e] at this
      omega

theorem integer_iff (i : Int) (c : Octets) (hi : notEdge i) : (c ≠ [] ∧ twos c = i ∧ shortest c) ↔ c = encInt i := by
  have ht : twos (encInt i) = i := by rw [twos_decInt, decInt_encInt]
  constructor
  · rintro ⟨hc, h, hs⟩
    exact integer_unique hc (encInt_ne_nil i) (h.trans ht.symm) hs ((encInt_shortest i).2 hi)
  · rintro rfl
    exact ⟨encInt_ne_nil i, ht, (encInt_shortest i).2 hi⟩

end Der
end Verif
