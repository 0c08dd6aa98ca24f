import Verif.Spec.Size
import Verif.Asn1.Size

/-! Lemmas: what the decoder makes is nested no deeper than the type. -/

namespace Verif
namespace Asn1

theorem decPrim_depth {k : Prim} {b : Bytes} {v : Val} (h : decPrim k b = some v) : v.depth = 1 := by
  cases k <;> simp only [decPrim] at h <;> first
    | (obtain ⟨s, _, rfl⟩ := Option.map_eq_some_iff.1 h; rfl)
    | (simp only [Option.some.injEq] at h; subst h; rfl)
    | (split at h
       · simp only [Option.some.injEq] at h; subst h; rfl
       · first
          | (split at h
             · simp only [Option.some.injEq] at h; subst h; rfl
             · simp at h)
          | simp at h)

theorem decPrimT_depth {k : Prim} {a : Attrs} {x : TLV} {v : Val} (h : decPrimT k a x = some v) : v.depth = 1 := by
  simp only [decPrimT] at h
  split at h
  · split at h
    · split at h <;> simp at h <;> subst h <;> rfl
    · simp at h; subst h; rfl
  · split at h
    · simp at h
    · split at h
      · simp at h
      · split at h
        · simp at h
        · rename_i w hw
          split at h
          · simp at h; subst h; exact decPrim_depth hw
          · simp at h

theorem missing_depth {f : Field} {t : Ty} {cs : Comps} {v : Val} (h : f.mode.missing = some v) :
    v.depth ≤ (Comps.cons f t cs).depth := by
  simp only [Comps.depth]
  cases hm : f.mode with
  | req => simp [hm, Mode.missing] at h
  | opt => simp [hm, Mode.missing] at h; subst h; simp only [Val.depth]; omega
  | dflt d => simp [hm, Mode.missing] at h; subst h; simp only; omega

theorem cons_depth (f : Field) (t : Ty) (cs : Comps) :
    t.depth ≤ (Comps.cons f t cs).depth ∧ cs.depth ≤ (Comps.cons f t cs).depth := by
  simp only [Comps.depth]
  cases f.mode <;> simp only <;> omega

theorem mapOpt_depth {g : TLV → Option Val} {d : Nat} : ∀ (xs : List TLV) (vs : List Val), mapOpt g xs = some vs →
    (∀ x ∈ xs, ∀ v, g x = some v → v.depth ≤ d) → (Vals.ofList vs).depth ≤ d
  | [], vs, h, _ => by simp [mapOpt] at h; subst h; simp [Vals.ofList, Vals.depth]
  | x :: xs, vs, h, hg => by
    simp only [mapOpt] at h
    split at h
    · rename_i v vs' h1 h2
      simp at h; subst h
      have e1 := hg x (by simp) v h1
      have e2 := mapOpt_depth xs vs' h2 (fun y hy => hg y (by simp [hy]))
      simp only [Vals.ofList, Vals.depth]; omega
    · simp at h

mutual
theorem decT_depth : ∀ (t : Ty) (x : TLV) (v : Val), decT t x = some v → v.depth ≤ t.depth
  | .prim k a, x, v, h => by
    have := decPrimT_depth (by simpa only [decT] using h)
    simp only [Ty.depth]; omega
  | .seq s a cs, x, v, h => by
    simp only [decT] at h
    split at h
    · simp at h
    · rename_i xs hxs
      split at h
      · simp at h
      · rename_i vs hvs
        split at h
        · simp only [Option.some.injEq] at h
          subst h
          have key : vs.depth ≤ cs.depth := by
            cases s with
            | true =>
              simp only [if_true] at hvs
              split at hvs
              · exact decSet_depth cs xs vs hvs
              · simp at hvs
            | false =>
              simp only [Bool.false_eq_true, if_false] at hvs
              exact decComps_depth cs xs vs hvs
          simp only [Val.depth, Ty.depth]; omega
        · simp at h
  | .of s a t, x, v, h => by
    simp only [decT] at h
    split at h
    · simp at h
    · rename_i xs hxs
      split at h
      · simp at h
      · rename_i vs hvs
        simp only [Option.some.injEq] at h
        subst h
        have := mapOpt_depth xs vs hvs (fun y _ w hw => decT_depth t y w hw)
        simp only [Val.depth, Ty.depth]; omega
  | .choice a cs, x, v, h => by
    simp only [decT] at h
    split at h
    · exact decAlt_depth cs 0 x v h
    · split at h
      · simp at h
      · split at h
        · simp at h
        · exact decAlt_depth cs 0 _ v h
  | .bad _, x, v, h => by simp [decT] at h
theorem decComps_depth : ∀ (cs : Comps) (xs : List TLV) (vs : Vals), decComps cs xs = some vs → vs.depth ≤ cs.depth
  | .nil, [], vs, h => by
    simp only [decComps, Option.some.injEq] at h
    subst h
    simp [Vals.depth]
  | .nil, _ :: _, vs, h => by simp [decComps] at h
  | .cons f t cs, [], vs, h => by
    simp only [decComps] at h
    split at h
    · rename_i v ws hv hws
      simp only [Option.some.injEq] at h
      subst h
      have := decComps_depth cs [] ws hws
      have := missing_depth (t := t) (cs := cs) hv
      have := cons_depth f t cs
      simp only [Vals.depth]; omega
    · simp at h
  | .cons f t cs, x :: xs, vs, h => by
    have := cons_depth f t cs
    simp only [decComps] at h
    split at h
    · split at h
      · rename_i v ws hv hws
        simp only [Option.some.injEq] at h
        subst h
        have := decT_depth t x v hv
        have := decComps_depth cs xs ws hws
        simp only [Vals.depth]; omega
      · simp at h
    · split at h
      · rename_i v ws hv hws
        simp only [Option.some.injEq] at h
        subst h
        have := decComps_depth cs (x :: xs) ws hws
        have := missing_depth (t := t) (cs := cs) hv
        simp only [Vals.depth]; omega
      · simp at h
theorem decSet_depth : ∀ (cs : Comps) (xs : List TLV) (vs : Vals), decSet cs xs = some vs → vs.depth ≤ cs.depth
  | .nil, xs, vs, h => by
    simp only [decSet, Option.some.injEq] at h
    subst h
    simp [Vals.depth]
  | .cons f t cs, xs, vs, h => by
    have := cons_depth f t cs
    simp only [decSet] at h
    split at h
    · rename_i ws us hws hus
      have ih := decSet_depth cs xs us hus
      split at h
      · rename_i w hw
        simp only [Option.some.injEq] at h
        subst h
        obtain ⟨y, _, h4⟩ := mapOpt_mem hws w (List.mem_of_getLast? hw)
        have := decT_depth t y w h4
        simp only [Vals.depth]; omega
      · split at h
        · rename_i w hm
          simp only [Option.some.injEq] at h
          subst h
          have := missing_depth (t := t) (cs := cs) hm
          simp only [Vals.depth]; omega
        · simp at h
    · simp at h
theorem decAlt_depth : ∀ (cs : Comps) (i : Nat) (x : TLV) (v : Val), decAlt cs i x = some v → v.depth ≤ 1 + cs.depth
  | .nil, i, x, v, h => by simp [decAlt] at h
  | .cons f t cs, i, x, v, h => by
    have := cons_depth f t cs
    simp only [decAlt] at h
    split at h
    · split at h
      · rename_i w hw
        simp only [Option.some.injEq] at h
        subst h
        have := decT_depth t x w hw
        simp only [Val.depth]; omega
      · simp at h
    · have := decAlt_depth cs (i + 1) x v h
      omega
end

theorem decode_depth {t : Ty} {b r : Bytes} {v : Val} (h : decode t b = some (v, r)) : v.depth ≤ t.depth := by
  simp only [decode] at h
  split at h
  · simp at h
  · split at h
    · simp at h
    · rename_i w hw
      simp only [Option.some.injEq, Prod.mk.injEq] at h
      obtain ⟨rfl, rfl⟩ := h
      exact decT_depth t _ w hw

end Asn1
end Verif
