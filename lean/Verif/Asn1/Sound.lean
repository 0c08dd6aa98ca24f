import Verif.Asn1.RtLemmas

/-! What the decoder guarantees about any input it accepts. -/

namespace Verif
namespace Asn1

theorem ofNat_toNat (n : Nat) (h : n < 256) : (Char.ofNat n).toNat = n := by
  have hv : n.isValidChar := Or.inl (by omega)
  unfold Char.ofNat
  rw [dif_pos hv]
  have : n < UInt32.size := by unfold UInt32.size; omega
  simp [Char.toNat, Char.ofNatAux]

theorem decAscii_repertoire : ∀ (b : Bytes) (s : List Char), decAscii b = some s → s.all (inRepertoire .ascii) = true
  | [], s, h => by simp [decAscii] at h; subst h; rfl
  | x :: b, s, h => by
    simp only [decAscii] at h
    split at h
    · rename_i hx
      cases hd : decAscii b with
      | none => simp [hd] at h
      | some s' =>
        simp only [hd, Option.map_some, Option.some.injEq] at h
        subst h
        have := decAscii_repertoire b s' hd
        simp only [List.all_cons, this, Bool.and_true, inRepertoire, decide_eq_true_eq]
        rw [ofNat_toNat _ (by omega)]; omega
    · simp at h

theorem decLatin1_repertoire : ∀ (b : Bytes), (decLatin1 b).all (inRepertoire .latin1) = true
  | [] => rfl
  | x :: b => by
    have hx := x.toNat_lt
    simp only [decLatin1, List.all_cons, decLatin1_repertoire b, Bool.and_true, inRepertoire, decide_eq_true_eq]
    rw [ofNat_toNat _ (by omega)]; omega

theorem decPrim_shape (k : Prim) (b : Bytes) (v : Val) (h : decPrim k b = some v) : primShape k v = true := by
  cases k with
  | boolean =>
    simp only [decPrim] at h
    split at h
    · simp at h; subst h; rfl
    · split at h
      · simp at h; subst h; rfl
      · simp at h
  | integer => simp [decPrim] at h; subst h; rfl
  | enumerated => simp [decPrim] at h; subst h; rfl
  | bitString =>
    simp only [decPrim] at h
    cases hb : decBits b with
    | none => simp [hb] at h
    | some bs => simp [hb] at h; subst h; rfl
  | octetString => simp [decPrim] at h; subst h; rfl
  | null =>
    simp only [decPrim] at h
    split at h
    · simp at h; subst h; rfl
    · simp at h
  | oid =>
    simp only [decPrim] at h
    cases hb : decOid b with
    | none => simp [hb] at h
    | some l =>
      simp only [hb, Option.map_some, Option.some.injEq] at h; subst h
      unfold decOid at hb
      split at hb
      · rename_i m _
        unfold splitArcs at hb
        split at hb
        · simp at hb
        · split at hb
          · rename_i hx; simp at hb; subst hb; simp [primShape, primLegal, hx]
          · split at hb
            · simp at hb; subst hb; simp [primShape, primLegal]; omega
            · simp at hb; subst hb; simp [primShape, primLegal]
      · simp at hb
  | any => simp [decPrim] at h; subst h; rfl
  | str k =>
    simp only [decPrim] at h
    cases hb : decStr k b with
    | none => simp [hb] at h
    | some s =>
      simp only [hb, Option.map_some, Option.some.injEq] at h; subst h
      simp only [primShape, primLegal]
      cases k with
      | ascii => exact decAscii_repertoire b s hb
      | latin1 => simp [decStr] at hb; subst hb; exact decLatin1_repertoire b
      | utf8 => simp [inRepertoire]
      | utf16be => simp [inRepertoire]
      | utf32be => simp [inRepertoire]
  | utcTime =>
    simp only [decPrim] at h
    cases hb : decAscii b with
    | none => simp [hb] at h
    | some s => simp [hb] at h; subst h; exact decAscii_repertoire b s hb
  | generalizedTime =>
    simp only [decPrim] at h
    cases hb : decAscii b with
    | none => simp [hb] at h
    | some s => simp [hb] at h; subst h; exact decAscii_repertoire b s hb

theorem admits_missing {f : Field} {t : Ty} {v : Val} (h : f.mode.missing = some v) :
    (match f.mode with
     | .req => t.admits v
     | .opt => v == .absent || t.admits v
     | .dflt d => v == d || t.admits v) = true := by
  cases hf : f.mode <;> simp [hf, Mode.missing] at h <;> simp [← h]

theorem admits_present {f : Field} {t : Ty} {v : Val} (h : t.admits v = true) :
    (match f.mode with
     | .req => t.admits v
     | .opt => v == .absent || t.admits v
     | .dflt d => v == d || t.admits v) = true := by
  cases hf : f.mode <;> simp [h]

mutual
theorem decT_admits : ∀ (t : Ty) (x : TLV) (v : Val), decT t x = some v → t.admits v = true
  | .prim k a, x, v, h => by
    simp only [decT, decPrimT] at h
    split at h
    · rename_i hk
      simp at hk; subst hk
      split at h
      · split at h
        · simp at h; subst h; rfl
        · simp at h; subst h; rfl
      · simp at h; subst h; rfl
    · rename_i hk
      split at h
      · simp at h
      · split at h
        · simp at h
        · split at h
          · simp at h
          · rename_i w hw
            split at h
            · rename_i hs
              simp only [Option.some.injEq] at h; subst h
              have := decPrim_shape k _ _ hw
              cases k <;> simp_all [Ty.admits]
            · simp at h
  | .seq isSet a cs, x, v, h => by
    simp only [decT] at h
    split at h
    · simp at h
    · rename_i xs _
      split at h
      · simp at h
      · rename_i vs hvs
        split at h
        · rename_i hok
          simp only [Option.some.injEq] at h; subst h
          simp only [Ty.admits, Bool.and_eq_true]
          refine ⟨?_, hok⟩
          cases isSet with
          | false => simp at hvs; exact decComps_admits cs xs vs hvs
          | true =>
            simp only [if_true] at hvs
            split at hvs
            · exact decSet_admits cs xs vs hvs
            · simp at hvs
        · simp at h
  | .of isSet a t, x, v, h => by
    simp only [decT] at h
    split at h
    · simp at h
    · rename_i xs _
      split at h
      · simp at h
      · rename_i vs hvs
        simp only [Option.some.injEq] at h; subst h
        simp only [Ty.admits, Vals.every_iff, Vals.toList_ofList, List.all_eq_true]
        intro w hw
        rw [mapOpt_all2] at hvs
        have : ∀ (xs : List TLV) (vs : List Val), all2 (fun x v => decT t x = some v) xs vs → ∀ w ∈ vs, t.admits w = true := by
          intro xs
          induction xs with
          | nil => intro vs h w hw; cases vs with
            | nil => simp at hw
            | cons => exact h.elim
          | cons y xs ih => intro vs h w hw; cases vs with
            | nil => simp at hw
            | cons u vs =>
              rcases List.mem_cons.1 hw with rfl | hw
              · exact decT_admits t y _ h.1
              · exact ih vs h.2 w hw
        exact this xs vs hvs w hw
  | .choice a cs, x, v, h => by
    simp only [decT] at h
    have key : ∀ z, decAlt cs 0 z = some v → (Ty.choice a cs).admits v = true := by
      intro z hz
      obtain ⟨i, w, h1, h2⟩ := decAlt_admits cs 0 z v hz
      rw [h1, Nat.zero_add]; exact h2
    split at h
    · exact key x h
    · split at h
      · simp at h
      · split at h
        · simp at h
        · exact key _ h
  | .bad _, x, v, h => by simp [decT] at h
theorem decComps_admits : ∀ (cs : Comps) (xs : List TLV) (vs : Vals), decComps cs xs = some vs → cs.admits vs = true
  | .nil, [], vs, h => by simp [decComps] at h; subst h; rfl
  | .nil, _ :: _, vs, h => by simp [decComps] at h
  | .cons f t cs, [], vs, h => by
    simp only [decComps] at h
    split at h
    · rename_i v vs' h1 h2
      simp only [Option.some.injEq] at h; subst h
      simp only [Comps.admits, decComps_admits cs [] vs' h2, Bool.and_true]
      exact admits_missing h1
    · simp at h
  | .cons f t cs, x :: xs, vs, h => by
    simp only [decComps] at h
    split at h
    · split at h
      · rename_i v vs' h1 h2
        simp only [Option.some.injEq] at h; subst h
        simp only [Comps.admits, decComps_admits cs xs vs' h2, Bool.and_true]
        exact admits_present (decT_admits t x v h1)
      · simp at h
    · split at h
      · rename_i v vs' h1 h2
        simp only [Option.some.injEq] at h; subst h
        simp only [Comps.admits, decComps_admits cs (x :: xs) vs' h2, Bool.and_true]
        exact admits_missing h1
      · simp at h
theorem decSet_admits : ∀ (cs : Comps) (xs : List TLV) (vs : Vals), decSet cs xs = some vs → cs.admits vs = true
  | .nil, xs, vs, h => by simp [decSet] at h; subst h; rfl
  | .cons f t cs, xs, vs, h => by
    simp only [decSet] at h
    split at h
    · rename_i ws vs' h1 h2
      have ih := decSet_admits cs xs vs' h2
      split at h
      · rename_i w hw
        simp only [Option.some.injEq] at h; subst h
        simp only [Comps.admits, ih, Bool.and_true]
        apply admits_present
        rw [mapOpt_all2] at h1
        have : ∀ (xs : List TLV) (vs : List Val), all2 (fun x v => decT t x = some v) xs vs → ∀ w ∈ vs, t.admits w = true := by
          intro xs
          induction xs with
          | nil => intro vs h w hw; cases vs with
            | nil => simp at hw
            | cons => exact h.elim
          | cons y xs ih => intro vs h w hw; cases vs with
            | nil => simp at hw
            | cons u vs =>
              rcases List.mem_cons.1 hw with rfl | hw
              · exact decT_admits t y _ h.1
              · exact ih vs h.2 w hw
        exact this _ _ h1 w (List.mem_of_getLast? hw)
      · split at h
        · rename_i w hw
          simp only [Option.some.injEq] at h; subst h
          simp only [Comps.admits, ih, Bool.and_true]
          exact admits_missing hw
        · simp at h
    · simp at h
theorem decAlt_admits : ∀ (cs : Comps) (k : Nat) (x : TLV) (v : Val), decAlt cs k x = some v →
    ∃ i w, v = .alt (k + i) w ∧ cs.admitsAlt i w = true
  | .nil, k, x, v, h => by simp [decAlt] at h
  | .cons f t cs, k, x, v, h => by
    simp only [decAlt] at h
    split at h
    · split at h
      · rename_i w hw
        simp only [Option.some.injEq] at h
        exact ⟨0, w, h.symm, by simpa [Comps.admitsAlt] using decT_admits t x w hw⟩
      · simp at h
    · obtain ⟨i, w, h1, h2⟩ := decAlt_admits cs (k + 1) x v h
      exact ⟨i + 1, w, by rw [h1]; congr 1; omega, by simpa [Comps.admitsAlt] using h2⟩
end

end Asn1
end Verif
