import Verif.Asn1.OpenComplete
import Verif.Asn1.OpenFuel

/-!
# Values without registered open fields, and open fields that cannot be resolved
-/

namespace Verif
namespace Asn1

theorem contentsAlt_get {D : Registry} {v : Val} : ∀ {cs : Comps} {i : Nat} {f : Field} {t : Ty}, cs.get? i = some (f, t) →
    cs.contentsAlt D i v = t.contents D v
  | .nil, _, _, _, h => by simp [Comps.get?] at h
  | .cons _ _ _, 0, _, _, h => by simp [Comps.get?] at h; simp [Comps.contentsAlt, h.2]
  | .cons _ _ cs, i + 1, _, _, h => by simp only [Comps.get?] at h; simp [Comps.contentsAlt, contentsAlt_get h]

mutual
/-- Without registered contents, opening changes nothing. -/
theorem Opens.plain_of {S : Side} : ∀ {ine : Bool} {t : Ty} {v : Val} {w : OVal}, Opens S ine t v w →
    t.contents S.registry v = [] → w.plain? = some v
  | _, _, _, _, .prim _ _ _ _, _ => by simp [OVal.plain?]
  | _, _, _, _, .seq _ _ _ _ _ _ _ hc, h => by
    simp only [Ty.contents] at h
    simp [OVal.plain?, hc.plain_of h]
  | _, _, _, _, .of _ _ _ _ _ _ he, h => by
    simp only [Ty.contents, List.flatMap_eq_nil_iff] at h
    simp [OVal.plain?, he.plain_of h]
  | _, _, _, _, .choice _ _ _ _ _ _ _ _ hg hw, h => by
    simp only [Ty.contents, contentsAlt_get hg] at h
    simp [OVal.plain?, hw.plain_of h]
theorem OpensE.plain_of {S : Side} : ∀ {ine : Bool} {t : Ty} {vs : Vals} {ws : OVals}, OpensE S ine t vs ws →
    (∀ v ∈ vs.toList, t.contents S.registry v = []) → ws.plain? = some vs
  | _, _, _, _, .nil _ _, _ => by simp [OVals.plain?]
  | _, _, _, _, .cons _ _ _ _ _ _ h1 h2, h => by
    simp only [Vals.toList, List.mem_cons, forall_eq_or_imp] at h
    simp [OVals.plain?, h1.plain_of h.1, h2.plain_of h.2]
theorem OpensC.plain_of {S : Side} : ∀ {ds : Comps} {us : Vals} {cs : Comps} {vs : Vals} {ws : OVals}, OpensC S ds us cs vs ws →
    Comps.contents S.registry ds us cs vs = [] → ws.plain? = some vs
  | _, _, _, _, _, .nil _ _, _ => by simp [OVals.plain?]
  | _, _, _, _, _, .cons _ _ _ _ _ _ _ _ _ h1 h2, h => by
    simp only [Comps.contents, List.append_eq_nil_iff] at h
    simp [OVals.plain?, h1.plain_of h.1.1 h.1.2, h2.plain_of h.2]
theorem OpensF.plain_of {S : Side} : ∀ {ds : Comps} {us : Vals} {f : Field} {t : Ty} {v : Val} {w : OVal}, OpensF S ds us f t v w →
    t.contents S.registry v = [] → (match f.openType with
     | none => []
     | some o => match (fieldVal o.governor ds us).bind (S.registry o.map) with
       | none => []
       | some u => (octetsIn v).map (fun b => (u, b))) = [] → w.plain? = some v
  | _, _, _, _, _, _, .absent _ _ _ _ _, _, _ => by simp [OVal.plain?]
  | _, _, _, _, _, _, .dflt _ _ _ _ _ _ _, _, _ => by simp [OVal.plain?]
  | _, _, _, _, _, _, .plain _ _ _ _ _ _ _ _ hw, h, _ => hw.plain_of h
  | _, _, _, _, _, _, .unknown _ _ _ _ _ _ _ _ _ _ _ _ hw, h, _ => hw.plain_of h
  | _, _, _, _, _, _, .known _ _ _ _ _ _ _ _ _ ho hg hD _ hw, _, h => by
    simp only [ho, hg, Option.bind_some, hD, List.map_eq_nil_iff] at h
    exact hw.plain_of h
theorem OpensV.plain_of {S : Side} : ∀ {ine : Bool} {t u : Ty} {v : Val} {w : OVal}, OpensV S ine t u v w →
    octetsIn v = [] → w.plain? = some v
  | _, _, _, _, _, .one _ _ _ _ _ _ _ _ _ _, h => by simp [octetsIn] at h
  | _, _, _, _, _, .many _ _ _ _ _ _ _ hl, h => by
    cases hl with
    | nil => simp [OVal.plain?, OVals.plain?]
    | cons => simp [octetsIn, Vals.toList] at h
end

/-! ## Fields whose governor does not exist -/

theorem governor_missing {name : String} : ∀ {cs : Comps}, cs.find name = none → ∀ ws, governor name cs ws = none
  | .nil, _, ws => by simp [governor]
  | .cons f t cs, h, .nil => by simp [governor]
  | .cons f t cs, h, .cons w ws => by
    simp only [Comps.find] at h
    split at h
    · simp at h
    · rename_i hn
      simp only [governor, if_neg hn]
      exact governor_missing h ws

/-- Some mandatory field is governed by a component that does not exist. -/
def Comps.lost (ds : Comps) : Comps → Bool
  | .nil => false
  | .cons f _ cs => (f.mode.isReq && (match f.openType with
      | none => false
      | some o => (ds.find o.governor).isNone)) || lost ds cs

theorem openAll_lost {D : Registry} {f : Ty → Bytes → Option OVal} {ds : Comps} {us : OVals} : ∀ {cs : Comps} {vs : OVals},
    Comps.lost ds cs = true → vs.length = cs.length → openAll D f ds us cs vs = none
  | .nil, _, h, _ => by simp [Comps.lost] at h
  | .cons fld t cs, .nil, _, hl => by simp [OVals.length, Comps.length] at hl
  | .cons fld t cs, .cons v vs, h, hl => by
    simp only [OVals.length, Comps.length, Nat.add_right_cancel_iff] at hl
    simp only [Comps.lost, Bool.or_eq_true, Bool.and_eq_true] at h
    simp only [openAll]
    rcases h with ⟨h1, h2⟩ | h
    · have : openField D f ds us fld v = none := by
        cases ho : fld.openType with
        | none => simp [ho] at h2
        | some o =>
          simp only [ho, Option.isNone_iff_eq_none] at h2
          have hopt : fld.mode.isOpt = false := by cases hm : fld.mode <;> simp_all [Mode.isReq, Mode.isOpt]
          simp [openField, ho, hopt, governor_missing h2]
      rw [this]
    · rw [openAll_lost h hl]
      cases openField D f ds us fld v <;> rfl

theorem odecComps_length {D : Registry} {f : Ty → Bytes → Option OVal} : ∀ (cs : Comps) (xs : List TLV) (ws : OVals),
    odecComps D f cs xs = some ws → ws.length = cs.length
  | .nil, [], ws, h => by simp [odecComps] at h; subst h; rfl
  | .nil, _ :: _, ws, h => by simp [odecComps] at h
  | .cons fld t cs, [], ws, h => by
    simp only [odecComps] at h
    split at h
    · rename_i v ws' h1 h2
      simp at h; subst h
      simp [OVals.length, Comps.length, odecComps_length cs [] ws' h2]
    · simp at h
  | .cons fld t cs, x :: xs, ws, h => by
    simp only [odecComps] at h
    split at h
    · split at h
      · rename_i v ws' h1 h2
        simp at h; subst h
        simp [OVals.length, Comps.length, odecComps_length cs _ ws' h2]
      · simp at h
    · split at h
      · rename_i v ws' h1 h2
        simp at h; subst h
        simp [OVals.length, Comps.length, odecComps_length cs _ ws' h2]
      · simp at h

/-- A SEQUENCE with such a field cannot be decoded with open types, whatever the input. -/
theorem odecode_lost {D : Registry} {a : Attrs} {cs : Comps} (h : Comps.lost cs cs = true) (n : Nat) (b : Bytes) :
    odecode D n (.seq false a cs) b = none := by
  cases n with
  | zero => rfl
  | succ n =>
    have hno : cs.noOpen = false := by
      have : ∀ ds cs, Comps.lost ds cs = true → cs.noOpen = false := by
        intro ds cs
        induction cs using Comps.rec (motive_1 := fun _ => True) with
        | nil => intro h; simp [Comps.lost] at h
        | cons f t cs _ ih =>
          intro h
          simp only [Comps.lost, Bool.or_eq_true, Bool.and_eq_true] at h
          simp only [Comps.noOpen, Bool.and_eq_false_iff]
          rcases h with ⟨_, h⟩ | h
          · left
            cases ho : f.openType with
            | none => simp [ho] at h
            | some o => rfl
          · exact Or.inr (ih h)
        | _ => trivial
      exact this cs cs h
    simp only [odecode]
    split
    · rfl
    · rename_i x rest hx
      have : odecT D (fun u c => (odecode D n u c).map Prod.fst) (.seq false a cs) x = none := by
        simp only [odecT]
        split
        · rfl
        · split
          · rfl
          · rename_i vs hvs
            simp only [Bool.false_eq_true, if_false] at hvs
            simp [hno, openAll_lost h (odecComps_length cs _ vs hvs)]
      rw [this]

end Asn1
end Verif
