import Verif.Asn1.BerOpenFuel
import Verif.Asn1.BerOpenComplete
import Verif.Asn1.OpenTypes
import Verif.Asn1.OpenPlain

/-!
# Decoding BER with open types: when it succeeds, and what it leaves alone
-/

namespace Verif
namespace Asn1
namespace BerOpen

/-- Some depth of nesting suffices. -/
def opensAt (D : Registry) (t : Ty) (b : Bytes) : Prop := ∃ n, odecode D n t b ≠ none

theorem opensAt_iff {D : Registry} (hD : D.openOk) {t : Ty} (ht : t.each Ty.openOk = true) {b : Bytes} :
    opensAt D t b ↔ odecode D (b.length + 1) t b ≠ none := by
  constructor
  · rintro ⟨n, h⟩ hd
    obtain ⟨q, hq⟩ := Option.ne_none_iff_exists'.1 h
    have h1 := odecode_mono D n (max n (b.length + 1)) (Nat.le_max_left _ _) t b q hq
    rw [odecode_fuel hD b.length t b _ (b.length + 1) ht (Nat.le_refl _)
      (Nat.lt_of_lt_of_le (Nat.lt_succ_self _) (Nat.le_max_right _ _)) (Nat.lt_succ_self _), hd] at h1
    simp at h1
  · intro h
    exact ⟨_, h⟩

theorem opensAt_all {D : Registry} : ∀ (l : List (Ty × Bytes)), (∀ p ∈ l, opensAt D p.1 p.2) →
    ∃ n, ∀ p ∈ l, odecode D n p.1 p.2 ≠ none
  | [], _ => ⟨0, by simp⟩
  | p :: l, h => by
    obtain ⟨n, hn⟩ := opensAt_all l (fun q hq => h q (List.mem_cons_of_mem _ hq))
    obtain ⟨m, hm⟩ := h p (List.mem_cons_self ..)
    have up : ∀ (q : Ty × Bytes) (k : Nat), k ≤ max m n → odecode D k q.1 q.2 ≠ none → odecode D (max m n) q.1 q.2 ≠ none := by
      intro q k hk hq
      obtain ⟨x, hx⟩ := Option.ne_none_iff_exists'.1 hq
      rw [odecode_mono D k _ hk q.1 q.2 x hx]
      simp
    refine ⟨max m n, fun q hq => ?_⟩
    rcases List.mem_cons.1 hq with rfl | hq
    · exact up _ m (Nat.le_max_left _ _) hm
    · exact up _ n (Nat.le_max_right _ _) (hn q hq)

/-- If the plain decoder succeeds and the contents of all resolved fields can be decoded, so can the whole. -/
theorem odecode_complete {D : Registry} (hD : D.openOk) {t : Ty} (ht : t.each Ty.openOk = true) (hg : t.each Ty.governed = true)
    (b r : Bytes) (v : Val) (h : berDecode t b = some (v, r))
    (hf : ∀ p ∈ t.contents D v, odecode D (p.2.length + 1) p.1 p.2 ≠ none) :
    ∃ w, odecode D (b.length + 1) t b = some (w, r) := by
  obtain ⟨n, hn⟩ := opensAt_all (t.contents D v) (fun p hp => ⟨_, hf p hp⟩)
  have key : opensAt D t b := by
    refine ⟨n + 1, ?_⟩
    simp only [berDecode] at h
    simp only [odecode]
    split at h
    · simp at h
    · rename_i x rest hx
      split at h
      · simp at h
      · rename_i v' hv'
        simp only [Option.some.injEq, Prod.mk.injEq] at h
        obtain ⟨rfl, rfl⟩ := h
        have hr : Right D (fun u c => (odecode D n u c).map Prod.fst) := by
          intro u e w hw
          cases ho : odecode D n u e with
          | none => simp [ho] at hw
          | some p =>
            obtain ⟨w', r'⟩ := p
            simp only [ho, Option.map_some, Option.some.injEq] at hw
            subst hw
            obtain ⟨v', hv', ho'⟩ := odecode_sound D n u e w' r' ho
            exact ⟨v', r', hv', ho'⟩
        obtain ⟨w, hw⟩ := odecT_complete hr t x v' hg hv' (fun p hp => by
          have := hn p hp
          intro he
          rw [Option.map_eq_none_iff] at he
          exact this he)
        simp only [hx, hw]
        simp
  obtain ⟨p, hp⟩ := Option.ne_none_iff_exists'.1 ((opensAt_iff hD ht).1 key)
  obtain ⟨w, r'⟩ := p
  obtain ⟨v', hv', _⟩ := odecode_sound D _ t b w r' hp
  rw [h] at hv'
  simp only [Option.some.injEq, Prod.mk.injEq] at hv'
  exact ⟨w, by rw [hp, hv'.2]⟩

mutual
/-- Without registered contents, opening changes nothing. -/
theorem Opens.plain_of {S : Registry} : ∀ {t : Ty} {v : Val} {w : OVal}, Opens S t v w →
    t.contents S v = [] → w.plain? = some v
  | _, _, _, .prim _ _ _, _ => by simp [OVal.plain?]
  | _, _, _, .seq _ _ _ _ _ hc, h => by
    simp only [Ty.contents] at h
    simp [OVal.plain?, hc.plain_of h]
  | _, _, _, .of _ _ _ _ _ he, h => by
    simp only [Ty.contents, List.flatMap_eq_nil_iff] at h
    simp [OVal.plain?, he.plain_of h]
  | _, _, _, .choice _ _ _ _ _ _ _ hg hw, h => by
    simp only [Ty.contents, contentsAlt_get hg] at h
    simp [OVal.plain?, hw.plain_of h]
theorem OpensE.plain_of {S : Registry} : ∀ {t : Ty} {vs : Vals} {ws : OVals}, OpensE S t vs ws →
    (∀ v ∈ vs.toList, t.contents S v = []) → ws.plain? = some vs
  | _, _, _, .nil _, _ => by simp [OVals.plain?]
  | _, _, _, .cons _ _ _ _ _ h1 h2, h => by
    simp only [Vals.toList, List.mem_cons, forall_eq_or_imp] at h
    simp [OVals.plain?, h1.plain_of h.1, h2.plain_of h.2]
theorem OpensC.plain_of {S : Registry} : ∀ {ds : Comps} {us : Vals} {cs : Comps} {vs : Vals} {ws : OVals}, OpensC S ds us cs vs ws →
    Comps.contents S ds us cs vs = [] → ws.plain? = some vs
  | _, _, _, _, _, .nil _ _, _ => by simp [OVals.plain?]
  | _, _, _, _, _, .cons _ _ _ _ _ _ _ _ _ h1 h2, h => by
    simp only [Comps.contents, List.append_eq_nil_iff] at h
    simp [OVals.plain?, h1.plain_of h.1.1 h.1.2, h2.plain_of h.2]
theorem OpensF.plain_of {S : Registry} : ∀ {ds : Comps} {us : Vals} {f : Field} {t : Ty} {v : Val} {w : OVal}, OpensF S ds us f t v w →
    t.contents S v = [] → (match f.openType with
     | none => []
     | some o => match (fieldVal o.governor ds us).bind (S o.map) with
       | none => []
       | some u => (octetsIn v).map (fun b => (u, b))) = [] → w.plain? = some v
  | _, _, _, _, _, _, .absent _ _ _ _ _, _, _ => by simp [OVal.plain?]
  | _, _, _, _, _, _, .dflt _ _ _ _ _ _ _, _, _ => by simp [OVal.plain?]
  | _, _, _, _, _, _, .plain _ _ _ _ _ _ _ hw, h, _ => hw.plain_of h
  | _, _, _, _, _, _, .unknown _ _ _ _ _ _ _ _ _ _ _ hw, h, _ => hw.plain_of h
  | _, _, _, _, _, _, .marker _ _ _ _ _ _ _ _ _ _, _, _ => by simp [OVal.plain?]
  | _, _, _, _, _, _, .known _ _ _ _ _ _ _ _ _ ho hg hD hw, _, h => by
    simp only [ho, hg, Option.bind_some, hD, List.map_eq_nil_iff] at h
    exact hw.plain_of h
theorem OpensV.plain_of {S : Registry} : ∀ {t u : Ty} {v : Val} {w : OVal}, OpensV S t u v w →
    octetsIn v = [] → w.plain? = some v
  | _, _, _, _, .one _ _ _ _ _ _ _ _, h => by simp [octetsIn] at h
  | _, _, _, _, .many _ _ _ _ _ _ hl, h => by
    cases hl with
    | nil => simp [OVal.plain?, OVals.plain?]
    | cons => simp [octetsIn, Vals.toList] at h
end


/-! ## Fields whose governor does not exist -/

theorem openAll_lost {D : Registry} {f : Ty → Bytes → Option OVal} {ind : Bool} {ds : Comps} {us : OVals} : ∀ {cs : Comps} {vs : OVals},
    Comps.lost ds cs = true → vs.length = cs.length → openAll D f ind ds us cs vs = none
  | .nil, _, h, _ => by simp [Comps.lost] at h
  | .cons fld t cs, .nil, _, hl => by simp [OVals.length, Comps.length] at hl
  | .cons fld t cs, .cons v vs, h, hl => by
    simp only [OVals.length, Comps.length, Nat.add_right_cancel_iff] at hl
    simp only [Comps.lost, Bool.or_eq_true, Bool.and_eq_true] at h
    simp only [openAll]
    rcases h with ⟨h1, h2⟩ | h
    · have : openField D f ind ds us fld v = none := by
        cases ho : fld.openType with
        | none => simp [ho] at h2
        | some o =>
          simp only [ho, Option.isNone_iff_eq_none] at h2
          have hopt : fld.mode.isOpt = false := by cases hm : fld.mode <;> simp_all [Mode.isReq, Mode.isOpt]
          simp [openField, ho, hopt, governor_missing h2]
      rw [this]
    · rw [openAll_lost h hl]
      cases openField D f ind ds us fld v <;> rfl

theorem odecComps_length {D : Registry} {f : Ty → Bytes → Option OVal} : ∀ (cs : Comps) (xs : List Elt) (ws : OVals),
    odecComps D f cs xs = some ws → ws.length = cs.length
  | .nil, [], ws, h => by simp [odecComps] at h; subst h; rfl
  | .nil, _ :: _, ws, h => by simp [odecComps] at h
  | .cons fld t cs, [], ws, h => by
    simp only [odecComps] at h
    split at h
    · rename_i v ws' h1 h2
      simp at h; subst h
      simp [OVals.length, Comps.length, odecComps_length cs [] ws' h2]
    · simp at h
  | .cons fld t cs, x :: xs, ws, h => by
    simp only [odecComps] at h
    split at h
    · split at h
      · rename_i v ws' h1 h2
        simp at h; subst h
        simp [OVals.length, Comps.length, odecComps_length cs _ ws' h2]
      · simp at h
    · split at h
      · rename_i v ws' h1 h2
        simp at h; subst h
        simp [OVals.length, Comps.length, odecComps_length cs _ ws' h2]
      · simp at h

/-- A SEQUENCE with such a field cannot be decoded with open types, whatever the input. -/
theorem odecode_lost {D : Registry} {a : Attrs} {cs : Comps} (h : Comps.lost cs cs = true) (n : Nat) (b : Bytes) :
    odecode D n (.seq false a cs) b = none := by
  cases n with
  | zero => rfl
  | succ n =>
    have hno : cs.noOpen = false := by
      have : ∀ ds cs, Comps.lost ds cs = true → cs.noOpen = false := by
        intro ds cs
        induction cs using Comps.rec (motive_1 := fun _ => True) with
        | nil => intro h; simp [Comps.lost] at h
        | cons f t cs _ ih =>
          intro h
          simp only [Comps.lost, Bool.or_eq_true, Bool.and_eq_true] at h
          simp only [Comps.noOpen, Bool.and_eq_false_iff]
          rcases h with ⟨_, h⟩ | h
          · left
            cases ho : f.openType with
            | none => simp [ho] at h
            | some o => rfl
          · exact Or.inr (ih h)
        | _ => trivial
      exact this cs cs h
    simp only [odecode]
    split
    · rfl
    · rename_i x rest hx
      have : odecT D (fun u c => (odecode D n u c).map Prod.fst) (.seq false a cs) x = none := by
        simp only [odecT]
        split
        · rfl
        · split
          · rfl
          · rename_i vs hvs
            simp only [Bool.false_eq_true, if_false] at hvs
            simp [hno, openAll_lost h (odecComps_length cs _ vs hvs)]
      rw [this]

end BerOpen
end Asn1
end Verif
