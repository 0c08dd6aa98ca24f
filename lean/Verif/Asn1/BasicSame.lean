import Verif.Asn1.BasicWrite

/-! # Where the BER encoder and the DER encoder write the same -/

namespace Verif
namespace Asn1

mutual
/-- No BOOLEAN, time, SET or SET OF inside, and only primitive types for OPTIONAL components (`opt`: the type is that of
an OPTIONAL component). -/
def Ty.alike (opt : Bool) : Ty → Bool
  | .prim k _ => k != .boolean && k != .utcTime && k != .generalizedTime
  | .seq s _ cs => !opt && !s && cs.alike
  | .of s _ t => !opt && !s && t.alike false
  | .choice _ cs => !opt && cs.alikeAlts
  | .bad _ => true
def Comps.alike : Comps → Bool
  | .nil => true
  | .cons f t cs => t.alike f.mode.isOpt && cs.alike
def Comps.alikeAlts : Comps → Bool
  | .nil => true
  | .cons _ t cs => t.alike false && cs.alikeAlts
end

theorem bencPrim_alike (k : Prim) (v : Val) (h : (k != .boolean && k != .utcTime && k != .generalizedTime) = true) :
    bencPrim k v = encPrim k v := by
  cases k <;> first | (cases v <;> rfl) | simp at h

theorem mapOpt_pair (f g : Val → Option Bytes) (hfg : ∀ v, f v = g v) : ∀ l : List Val,
    mapOpt (fun v => (g v).map (fun b => (b, v))) l = (mapOpt f l).map (fun bs => bs.zip l)
  | [] => rfl
  | v :: l => by
    simp only [mapOpt, mapOpt_pair f g hfg l, hfg v]
    cases g v <;> cases mapOpt f l <;> rfl

theorem mapOpt_len (f : Val → Option Bytes) : ∀ (l : List Val) (bs : List Bytes), mapOpt f l = some bs → bs.length = l.length
  | [], bs, h => by
    simp only [mapOpt, Option.some.injEq] at h
    subst h; rfl
  | v :: l, bs, h => by
    simp only [mapOpt] at h
    split at h
    · rename_i b cs h1 h2
      cases h
      simp [mapOpt_len f l cs h2]
    · cases h

theorem zip_fst : ∀ (bs : List Bytes) (l : List Val), bs.length = l.length → (bs.zip l).flatMap Prod.fst = bs.flatten
  | [], _, _ => rfl
  | _ :: _, [], h => by simp at h
  | b :: bs, v :: l, h => by
    simp only [List.length_cons, Nat.add_right_cancel_iff] at h
    simp [zip_fst bs l h]

theorem encComps_put' {f : Field} {t : Ty} {cs : Comps} {v : Val} {vs : Vals} {ps : List (TagSet × Bytes)}
    (h : encComps cs vs = some ps) (hv : v ≠ .absent) (hm : f.mode ≠ .dflt v) :
    encComps (.cons f t cs) (.cons v vs) = (enc f.mode.isOpt t v).map (fun b => (setKey t v, b) :: ps) := by
  simp only [encComps, h]
  split
  · exact absurd rfl hv
  · exact absurd rfl hv
  · exact absurd rfl hv
  · rw [if_neg hm]
    split <;> rename_i hb <;> simp only [hb, Option.map_none, Option.map_some]

mutual
theorem benc_alike : ∀ (opt : Bool) (t : Ty) (v : Val), t.alike opt = true → enc opt t v = benc t v
  | opt, .prim k a, v, h => by
    simp only [Ty.alike] at h
    simp only [enc, benc, bencPrim_alike k v h]
  | opt, .seq s a cs, v, h => by
    simp only [Ty.alike, Bool.and_eq_true, Bool.not_eq_true'] at h
    obtain ⟨⟨rfl, rfl⟩, h⟩ := h
    cases v <;> simp only [enc, benc]
    rename_i vs
    split
    · have := bencComps_alike cs vs h
      cases hp : encComps cs vs with
      | none =>
        rw [hp] at this
        simp only [Option.map_none] at this
        simp only [← this]
      | some ps =>
        rw [hp] at this
        simp only [Option.map_some] at this
        simp only [← this, Bool.false_and, Bool.false_eq_true, if_false, List.flatMap_def]
    · rfl
  | opt, .of s a t, v, h => by
    simp only [Ty.alike, Bool.and_eq_true, Bool.not_eq_true'] at h
    obtain ⟨⟨rfl, rfl⟩, h⟩ := h
    cases v <;> simp only [enc, benc]
    rename_i vs
    split
    · rw [mapOpt_pair (benc t) (enc false t) (fun v => (benc_alike false t v h).symm)]
      cases hp : mapOpt (benc t) vs.toList with
      | none => simp only [Option.map_none]
      | some bs =>
        simp only [Option.map_some, Bool.false_and, Bool.false_eq_true, if_false]
        rw [zip_fst _ _ (mapOpt_len _ _ _ hp)]
    · rfl
  | opt, .choice a cs, v, h => by
    simp only [Ty.alike, Bool.and_eq_true, Bool.not_eq_true'] at h
    obtain ⟨rfl, h⟩ := h
    cases v <;> simp only [enc, benc]
    rename_i i v
    rw [bencAlt_alike cs i v h]
    cases bencAlt cs i v with
    | none => rfl
    | some c => simp only [Bool.false_and, Bool.false_eq_true, if_false]
  | _, .bad _, v, _ => by simp only [enc, benc]
theorem bencComps_alike : ∀ (cs : Comps) (vs : Vals), cs.alike = true → (encComps cs vs).map (·.map Prod.snd) = bencComps cs vs
  | .nil, .nil, _ => by simp [encComps, bencComps]
  | .nil, .cons _ _, _ => by simp [encComps, bencComps]
  | .cons _ _ _, .nil, _ => by simp [encComps, bencComps]
  | .cons f t cs, .cons v vs, h => by
    simp only [Comps.alike, Bool.and_eq_true] at h
    have ih := bencComps_alike cs vs h.2
    have it := benc_alike f.mode.isOpt t v h.1
    cases hp : encComps cs vs with
    | none =>
      rw [hp] at ih
      simp only [encComps, bencComps, hp, ← ih, Option.map_none]
    | some ps =>
      rw [hp] at ih
      by_cases hv : v = .absent
      · subst hv
        simp only [encComps, bencComps, hp, ← ih, Option.map_some]
        cases hm : f.mode <;> rfl
      · by_cases hd : f.mode = .dflt v
        · rw [encComps_skip hp (by simp [hd]) (Or.inr hd), bencComps_skip ih.symm (by simp [hd]) (Or.inr hd)]
          rfl
        · rw [encComps_put' hp hv hd, bencComps_put ih.symm hv hd, it]
          cases benc t v <;> rfl
theorem bencAlt_alike : ∀ (cs : Comps) (i : Nat) (v : Val), cs.alikeAlts = true → encAlt false cs i v = bencAlt cs i v
  | .nil, _, _, _ => by simp only [encAlt, bencAlt]
  | .cons f t cs, 0, v, h => by
    simp only [Comps.alikeAlts, Bool.and_eq_true] at h
    simp only [encAlt, bencAlt, benc_alike false t v h.1]
  | .cons f t cs, i + 1, v, h => by
    simp only [Comps.alikeAlts, Bool.and_eq_true] at h
    simp only [encAlt, bencAlt, bencAlt_alike cs i v h.2]
end

/-- The two encoders write the same for such a type, whatever the value. -/
theorem berEncode_alike (t : Ty) (v : Val) (h : t.alike false = true) : berEncode t v = encode t v :=
  (benc_alike false t v h).symm

/-! ## Valid values have valid times -/

theorem primLegal_asText (k : Prim) (v : Val) (h : primLegal k v = true) : primLegal k.asText v = true := by
  have key : ∀ lo hi s, legalTime lo hi s = true → s.all (inRepertoire .ascii) = true := by
    intro lo hi s h
    simp only [legalTime, Bool.and_eq_true, List.all_eq_true] at h
    rw [List.all_eq_true]
    intro c hc
    exact (h.1.2 c hc).1
  cases k <;> cases v <;> first | exact h | exact key _ _ _ h

mutual
theorem valid_text : ∀ (t : Ty) (v : Val), t.valid v = true → t.asText.valid v = true
  | .prim k a, v, h => by
    simp only [Ty.valid, Bool.and_eq_true] at h
    simp only [Ty.asText, Ty.valid, Bool.and_eq_true]
    refine ⟨⟨primLegal_asText k v h.1.1, h.1.2⟩, ?_⟩
    cases k <;> first | rfl | exact h.2
  | .seq s a cs, v, h => by
    cases v <;> simp only [Ty.valid, Bool.and_eq_true, Bool.false_eq_true] at h
    simp only [Ty.asText, Ty.valid, Bool.and_eq_true, Comps.asText_names]
    exact ⟨valid_textC cs _ h.1, h.2⟩
  | .of s a t, v, h => by
    cases v <;> simp only [Ty.valid, Bool.and_eq_true, Bool.false_eq_true] at h
    simp only [Ty.asText, Ty.valid, Bool.and_eq_true]
    refine ⟨?_, h.2⟩
    have h1 := h.1
    rw [Vals.every_iff, List.all_eq_true] at h1 ⊢
    exact fun u hu => valid_text t u (h1 u hu)
  | .choice a cs, v, h => by
    cases v <;> simp only [Ty.valid, Bool.false_eq_true] at h
    simp only [Ty.asText, Ty.valid]
    exact valid_textA cs _ _ h
  | .bad _, _, h => by simp [Ty.valid] at h
theorem valid_textC : ∀ (cs : Comps) (vs : Vals), cs.valid vs = true → cs.asText.valid vs = true
  | .nil, .nil, _ => rfl
  | .nil, .cons _ _, h => by simp [Comps.valid] at h
  | .cons _ _ _, .nil, h => by simp [Comps.valid] at h
  | .cons f t cs, .cons v vs, h => by
    simp only [Comps.valid, Bool.and_eq_true] at h
    simp only [Comps.asText, Comps.valid, Bool.and_eq_true]
    refine ⟨?_, valid_textC cs vs h.2⟩
    have h1 := h.1
    cases hm : f.mode with
    | req => simp only [hm] at h1 ⊢; exact valid_text t v h1
    | opt =>
      simp only [hm, Bool.or_eq_true] at h1 ⊢
      exact h1.imp_right (valid_text t v)
    | dflt d =>
      simp only [hm, Bool.or_eq_true] at h1 ⊢
      exact h1.imp_right (valid_text t v)
theorem valid_textA : ∀ (cs : Comps) (i : Nat) (v : Val), cs.validAlt i v = true → cs.asText.validAlt i v = true
  | .nil, _, _, h => by simp [Comps.validAlt] at h
  | .cons f t cs, 0, v, h => by
    simp only [Comps.validAlt] at h
    simp only [Comps.asText, Comps.validAlt]
    exact valid_text t v h
  | .cons f t cs, i + 1, v, h => by
    simp only [Comps.validAlt] at h
    simp only [Comps.asText, Comps.validAlt]
    exact valid_textA cs i v h
end

end Asn1
end Verif
