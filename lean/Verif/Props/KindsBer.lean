import Verif.Asn1.ApartBer
import Verif.Props.Basic
import Verif.Props.Kinds

/-!
# C73, with the BER decoder

The same 62 classes and the same 26 exceptions.
-/

namespace Verif
namespace Props
namespace KindsBer

open Asn1 Verif.Kinds Kinds

set_option maxRecDepth 100000 in
theorem apart_table : (pairs kinds).all (fun p => overlap p.1.1 p.2.1 || BerApart.apart 12 p.1.2 p.2.2) = true := by
  decide +kernel

/-- If the types are apart, no octets are accepted by both. -/
theorem apart_decode (n : Nat) (t u : Ty) (h : BerApart.apart n t u = true) (b : Bytes) :
    berDecode t b = none ∨ berDecode u b = none := by
  cases h1 : berDecode t b with
  | none => exact .inl rfl
  | some p =>
    cases h2 : berDecode u b with
    | none => exact .inr rfl
    | some q =>
      exfalso
      unfold berDecode at h1 h2
      cases hr : readElt b with
      | none => simp [hr] at h1
      | some x =>
        refine BerApart.apart_sound n t u h x.1 (fun e => ?_) (fun e => ?_)
        · simp [hr, e] at h1
        · simp [hr, e] at h2

/-- C73: octets the BER decoder accepts with one kind it refuses with every other kind that is not listed as overlapping
with it. -/
theorem one_kind (k l : String × Ty) (hk : k ∈ kinds) (hl : l ∈ kinds) (hn : k ≠ l) (ho : overlap k.1 l.1 = false) (b : Bytes) :
    berDecode k.2 b = none ∨ berDecode l.2 b = none := by
  have table := List.all_eq_true.1 apart_table
  rcases mem_pairs kinds k l hk hl with h | h | h
  · exact absurd h hn
  · have := table _ h
    simp only [ho, Bool.false_or] at this
    exact apart_decode 12 _ _ this b
  · have := table _ h
    simp only [overlap_comm l.1 k.1, ho, Bool.false_or] at this
    exact (apart_decode 12 _ _ this b).symm

/-- C73: the exceptions are the same. -/
theorem both (n m : String) (b : Bytes) (h : (n, m, b) ∈ overlapping) :
    ∃ t u v w, (n, t) ∈ kinds ∧ (m, u) ∈ kinds ∧ berDecode t b = some (v, []) ∧ berDecode u b = some (w, []) := by
  obtain ⟨t, u, v, w, h1, h2, h3, h4⟩ := Kinds.both n m b h
  exact ⟨t, u, v, w, h1, h2, berDecode_extends _ _ _ _ h3, berDecode_extends _ _ _ _ h4⟩

/-- Whichever of the classes accepts the octets is found. -/
theorem recognise_of (ks : List (String × Ty)) (hd : Distinct ks) (k : String × Ty) (hk : k ∈ ks) (b rest : Bytes) (v : Val)
    (h : berDecode k.2 b = some (v, rest)) : recognise berDecode ks b = some (k.1, v, rest) := by
  have : ∀ ls : List (String × Ty), (∀ l ∈ ls, l ∈ ks) → k ∈ ls → recognise berDecode ls b = some (k.1, v, rest) := by
    intro ls
    induction ls with
    | nil => intro _ h; simp at h
    | cons l ls ih =>
      intro hs hm
      rw [recognise]
      by_cases e : k = l
      · subst e
        rw [h]
      · have hl : berDecode l.2 b = none := by
          rcases one_kind k l (hd.1 k hk) (hd.1 l (hs l (by simp))) e (hd.2 k hk l (hs l (by simp)) e) b with h' | h'
          · simp [h] at h'
          · exact h'
        rw [hl]
        exact ih (fun x hx => hs x (by simp [hx])) (by simpa [e] using hm)
  exact this ks (fun _ h => h) hk

/-- C73: any BER encoding of a value, with definite or indefinite lengths or strings in pieces, is recognised and read as
that value, whatever classes are tried before its own, as long as no two of the classes tried overlap. -/
theorem recognised (ks : List (String × Ty)) (hd : Distinct ks) (k : String × Ty) (hk : k ∈ ks) (hn : k.1 ∉ Package.defective)
    (v : Val) (b rest : Bytes) (h : Basic.reads false k.2 v b) :
    recognise berDecode ks (b ++ rest) = some (k.1, v, rest) :=
  recognise_of ks hd k hk _ _ _ (BasicRules.ber_read k (known k (hd.1 k hk)) hn v b rest h)

/-- C73: what is recognised from DER is recognised, as the same kind and the same value, with the BER decoder. -/
theorem der_recognised (ks : List (String × Ty)) (hd : Distinct ks) (b rest : Bytes) (n : String) (v : Val)
    (h : recognise decode ks b = some (n, v, rest)) : recognise berDecode ks b = some (n, v, rest) := by
  have : ∀ ls : List (String × Ty), recognise decode ls b = some (n, v, rest) → ∃ k ∈ ls, k.1 = n ∧ decode k.2 b = some (v, rest) := by
    intro ls
    induction ls with
    | nil => intro h; simp [recognise] at h
    | cons l ls ih =>
      intro h
      rw [recognise] at h
      split at h
      · rename_i w r e
        simp only [Option.some.injEq, Prod.mk.injEq] at h
        obtain ⟨h1, rfl, rfl⟩ := h
        exact ⟨l, by simp, h1, e⟩
      · obtain ⟨k, hk, h1⟩ := ih h
        exact ⟨k, by simp [hk], h1⟩
  obtain ⟨k, hk, rfl, h1⟩ := this ks h
  exact recognise_of ks hd k hk b rest v (berDecode_extends _ _ _ _ h1)

/-- C73: the order in which the classes are tried makes no difference, for all octets. -/
theorem any_order (ks ls : List (String × Ty)) (hd : Distinct ks) (hs : ∀ k, k ∈ ks ↔ k ∈ ls) (b : Bytes) :
    recognise berDecode ks b = recognise berDecode ls b := by
  have found : ∀ (xs : List (String × Ty)), (∀ k ∈ xs, berDecode k.2 b = none) → recognise berDecode xs b = none := by
    intro xs
    induction xs with
    | nil => intro _; rfl
    | cons x xs ih =>
      intro h
      rw [recognise, h x (by simp)]
      exact ih (fun y hy => h y (by simp [hy]))
  have hd' : Distinct ls :=
    ⟨fun k hk => hd.1 k ((hs k).2 hk), fun k hk l hl => hd.2 k ((hs k).2 hk) l ((hs l).2 hl)⟩
  by_cases h : ∃ k ∈ ks, berDecode k.2 b ≠ none
  · obtain ⟨k, hk, hn⟩ := h
    cases e : berDecode k.2 b with
    | none => exact absurd e hn
    | some p => rw [recognise_of ks hd k hk b p.2 p.1 e, recognise_of ls hd' k ((hs k).1 hk) b p.2 p.1 e]
  · have h' : ∀ k ∈ ks, berDecode k.2 b = none := fun k hk => Classical.byContradiction (fun e => h ⟨k, hk, e⟩)
    rw [found ks h', found ls (fun k hk => h' k ((hs k).2 hk))]

/-! ## Examples -/

-- an RSA public key with indefinite length, with something behind it
example : (recognise berDecode files [48, 128, 2, 1, 35, 2, 1, 3, 0, 0, 7]).any
    (fun r => r.1 == "rfc8017.RSAPublicKey" && r.2.2 == [7]) = true ∧
    recognise decode files [48, 128, 2, 1, 35, 2, 1, 3, 0, 0, 7] = none := by
  decide +kernel

-- an encrypted private key whose octets come in two pieces
example : (recognise berDecode files [48, 15, 48, 3, 6, 1, 42, 36, 8, 4, 2, 1, 2, 4, 2, 3, 4]).any
    (fun r => r.1 == "rfc5208.EncryptedPrivateKeyInfo" && r.2.2 == []) = true := by
  decide +kernel

end KindsBer
end Props
end Verif
