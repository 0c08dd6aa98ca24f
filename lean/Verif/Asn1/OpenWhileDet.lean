import Verif.Asn1.OpenWhile
import Verif.Asn1.OpenTypes
import Verif.Spec.Governor

/-!
# Without changes the decoder of `OpenWhile.lean` is that of `Open.lean`
-/

namespace Verif
namespace Asn1

set_option linter.unusedSimpArgs false

namespace Nd

theorem bind_none {α β : Type} (k : α → Nd β) : bind (lift none) k = fail := by
  funext r
  simp [bind, lift, fail]

theorem bind_some {α β : Type} (a : α) (k : α → Nd β) : bind (lift (some a)) k = k a := by
  funext r
  simp [bind, lift]

theorem ret_lift {α : Type} (a : α) : ret a = lift (some a) := rfl

theorem fail_lift {α : Type} : (fail : Nd α) = lift none := rfl

theorem map_lift {α β : Type} {f : α → Nd β} {g : α → Option β} : ∀ (xs : List α), (∀ x ∈ xs, f x = lift (g x)) →
    map f xs = lift (mapOpt g xs)
  | [], _ => rfl
  | x :: xs, h => by
    simp only [map, mapOpt, h x (by simp), map_lift xs (fun y hy => h y (by simp [hy]))]
    cases g x <;> simp only [bind_none, bind_some, ret_lift, fail_lift]
    cases mapOpt g xs <;> simp only [bind_none, bind_some, ret_lift, fail_lift]

end Nd

open Nd

theorem wopenOne_det {F : Ty → Bytes → Nd OVal} {f : Ty → Bytes → Option OVal} {u : Ty} (h : ∀ c, F u c = lift (f u c)) (v : OVal) :
    wopenOne F u v = lift (openOne f u v) := by
  cases v with
  | leaf v =>
    cases v with
    | octets b =>
      simp only [wopenOne, openOne, h]
      cases f u b <;> simp only [bind_none, bind_some, ret_lift, fail_lift, Option.map_none, Option.map_some]
    | _ => rfl
  | _ => rfl

theorem wopenVal_det {F : Ty → Bytes → Nd OVal} {f : Ty → Bytes → Option OVal} {u : Ty} (h : ∀ c, F u c = lift (f u c)) (v : OVal) :
    wopenVal F u v = lift (openVal f u v) := by
  cases v with
  | list vs =>
    simp only [wopenVal, openVal, map_lift vs.toList (fun x _ => wopenOne_det h x)]
    cases mapOpt (openOne f u) vs.toList <;> simp only [bind_none, bind_some, ret_lift, fail_lift, Option.map_none, Option.map_some]
  | leaf v => exact wopenOne_det h _
  | _ => rfl

/-- On the dictionaries that satisfy `p`, the decoder sees `D`, and decodes what is in them as `f` does. -/
structure Steady (p : Ident → Bool) (L : Looks) (F : Ty → Bytes → Nd OVal) (D : Registry) (f : Ty → Bytes → Option OVal) : Prop where
  looks : ∀ m k, p m = true → L m k = lift (D m k)
  inner : ∀ m k u, p m = true → D m k = some u → ∀ c, F u c = lift (f u c)

variable {p : Ident → Bool} {L : Looks} {F : Ty → Bytes → Nd OVal} {D : Registry} {f : Ty → Bytes → Option OVal}

theorem wopenField_det (h : Steady p L F D f) (ds : Comps) (us : OVals) (fld : Field) (v : OVal)
    (hs : (match fld.openType with | none => true | some o => p o.map) = true) :
    wopenField L F ds us fld v = lift (openField D f ds us fld v) := by
  unfold wopenField openField
  split
  · rename_i ho; simp [ret_lift, ho]
  · rename_i o ho
    simp only [ho] at hs ⊢
    split
    · rfl
    · split
      · rename_i hg; simp only [hg]; rfl
      · rename_i g hg
        simp only [hg]
        funext r
        rw [h.looks _ _ hs]
        cases hD : D o.map g with
        | none => simp [lift, wopenLook, ret]
        | some u =>
          simp only [lift, exists_eq_left, wopenLook]
          rw [wopenVal_det (h.inner _ _ u hs hD)]
          rfl

theorem wopenAll_det (h : Steady p L F D f) (ds : Comps) (us : OVals) : ∀ (cs : Comps) (vs : OVals), cs.useOnly p = true →
    wopenAll L F ds us cs vs = lift (openAll D f ds us cs vs)
  | .cons fld t cs, .cons v vs, hs => by
    simp only [Comps.useOnly, Bool.and_eq_true] at hs
    simp only [wopenAll, openAll, wopenField_det h ds us fld v hs.1, wopenAll_det h ds us cs vs hs.2]
    cases openField D f ds us fld v <;> simp only [bind_none, bind_some, ret_lift, fail_lift]
    cases openAll D f ds us cs vs <;> simp only [bind_none, bind_some, ret_lift, fail_lift]
  | .nil, _, _ => by simp [wopenAll, openAll, ret_lift]
  | .cons _ _ _, .nil, _ => by simp [wopenAll, openAll, ret_lift]

theorem wfinish_det (h : Steady p L F D f) (a : Attrs) (cs : Comps) (vs : OVals) (hs : cs.useOnly p = true) :
    wfinish L F a cs vs = lift (if cs.noOpen then
      if a.spec.ok (.mapping (opresentNames cs vs).length (opresentNames cs vs)) then some (.record vs) else none
      else (openAll D f cs vs cs vs).map .record) := by
  unfold wfinish
  split
  · split <;> rfl
  · rw [wopenAll_det h cs vs cs vs hs]
    cases openAll D f cs vs cs vs <;> simp only [bind_none, bind_some, ret_lift, fail_lift, Option.map_none, Option.map_some]

mutual
theorem wdecT_det (h : Steady p L F D f) : ∀ (t : Ty) (x : TLV), t.each (Ty.useOnly p) = true → wdecT L F t x = lift (odecT D f t x)
  | .prim k a, x, _ => by simp [wdecT, odecT]
  | .seq s a cs, x, ho => by
    simp only [Ty.each, Ty.useOnly, Bool.and_eq_true] at ho
    simp only [wdecT, odecT]
    cases innerItems a x with
    | none => simp only [bind_none, fail_lift]
    | some xs =>
      simp only [bind_some]
      rw [wdecComps_det h cs xs ho.2, wdecSet_det h cs xs ho.2]
      have : (if s = true then if xs.all cs.matches = true then lift (odecSet D f cs xs) else fail
          else lift (odecComps D f cs xs)) = lift (if s = true then if xs.all cs.matches = true then odecSet D f cs xs else none
          else odecComps D f cs xs) := by
        split
        · split <;> rfl
        · rfl
      rw [this]
      cases (if s = true then if xs.all cs.matches = true then odecSet D f cs xs else none else odecComps D f cs xs) with
      | none => simp only [bind_none, fail_lift]
      | some vs => simp only [bind_some, wfinish_det h a cs vs ho.1]
  | .of s a t, x, ho => by
    simp only [Ty.each, Bool.and_eq_true] at ho
    simp only [wdecT, odecT]
    cases innerItems a x with
    | none => simp only [bind_none, fail_lift]
    | some xs =>
      simp only [bind_some]
      rw [map_lift xs (fun y _ => wdecT_det h t y ho.2)]
      cases mapOpt (odecT D f t) xs <;> simp only [bind_none, bind_some, ret_lift, fail_lift]
  | .choice a cs, x, ho => by
    simp only [Ty.each, Bool.and_eq_true] at ho
    simp only [wdecT, odecT]
    cases a.tags with
    | nil => exact wdecAlt_det h cs 0 x ho.2
    | cons hd tl =>
      dsimp only
      cases unwrap (hd :: tl).reverse x with
      | none => simp only [Option.bind_none, bind_none, fail_lift]
      | some y =>
        simp only [Option.bind_some]
        cases readTLV y.content with
        | none => simp only [bind_none, fail_lift]
        | some z => simp only [bind_some, wdecAlt_det h cs 0 z.1 ho.2]
  | .bad _, _, _ => by simp [wdecT, odecT, fail_lift]
theorem wdecComps_det (h : Steady p L F D f) : ∀ (cs : Comps) (xs : List TLV), cs.each (Ty.useOnly p) = true →
    wdecComps L F cs xs = lift (odecComps D f cs xs)
  | .nil, [], _ => by simp [wdecComps, odecComps, ret_lift]
  | .nil, _ :: _, _ => by simp [wdecComps, odecComps, fail_lift]
  | .cons fld t cs, [], ho => by
    simp only [Comps.each, Bool.and_eq_true] at ho
    simp only [wdecComps, odecComps, wdecComps_det h cs [] ho.2]
    cases fld.mode.missing <;> simp only [bind_none, bind_some, ret_lift, fail_lift]
    cases odecComps D f cs [] <;> simp only [bind_none, bind_some, ret_lift, fail_lift]
  | .cons fld t cs, x :: xs, ho => by
    simp only [Comps.each, Bool.and_eq_true] at ho
    simp only [wdecComps, odecComps, wdecComps_det h cs (x :: xs) ho.2, wdecT_det h t x ho.1, wdecComps_det h cs xs ho.2]
    split
    · cases odecT D f t x <;> simp only [bind_none, bind_some, ret_lift, fail_lift]
      cases odecComps D f cs xs <;> simp only [bind_none, bind_some, ret_lift, fail_lift]
    · cases fld.mode.missing <;> simp only [bind_none, bind_some, ret_lift, fail_lift]
      cases odecComps D f cs (x :: xs) <;> simp only [bind_none, bind_some, ret_lift, fail_lift]
theorem wdecSet_det (h : Steady p L F D f) : ∀ (cs : Comps) (xs : List TLV), cs.each (Ty.useOnly p) = true →
    wdecSet L F cs xs = lift (odecSet D f cs xs)
  | .nil, _, _ => by simp [wdecSet, odecSet, ret_lift]
  | .cons fld t cs, xs, ho => by
    simp only [Comps.each, Bool.and_eq_true] at ho
    simp only [wdecSet, odecSet, wdecSet_det h cs xs ho.2]
    rw [map_lift (xs.filter t.matches) (fun y _ => wdecT_det h t y ho.1)]
    cases mapOpt (odecT D f t) (xs.filter t.matches) with
    | none => simp only [bind_none, fail_lift]
    | some ws =>
      simp only [bind_some]
      cases odecSet D f cs xs with
      | none => simp only [bind_none, fail_lift]
      | some vs =>
        simp only [bind_some, wlast]
        cases ws.getLast? with
        | some w => rfl
        | none => cases fld.mode.missing <;> rfl
theorem wdecAlt_det (h : Steady p L F D f) : ∀ (cs : Comps) (k : Nat) (x : TLV), cs.each (Ty.useOnly p) = true →
    wdecAlt L F cs k x = lift (odecAlt D f cs k x)
  | .nil, _, _, _ => by simp [wdecAlt, odecAlt, fail_lift]
  | .cons fld t cs, k, x, ho => by
    simp only [Comps.each, Bool.and_eq_true] at ho
    simp only [wdecAlt, odecAlt, wdecAlt_det h cs (k + 1) x ho.2, wdecT_det h t x ho.1]
    split
    · cases odecT D f t x <;> simp only [bind_none, bind_some, ret_lift, fail_lift]
    · rfl
end

/-- Looks into dictionaries that do not change. -/
def Registry.looks (D : Registry) : Looks := fun m k => lift (D m k)

mutual
theorem Ty.useOnly_true : ∀ t : Ty, t.each (Ty.useOnly (fun _ => true)) = true
  | .prim _ _ => by simp [Ty.each, Ty.useOnly]
  | .seq _ _ cs => by simp [Ty.each, Ty.useOnly, Comps.useOnly_true cs, Comps.each_useOnly_true cs]
  | .of _ _ t => by simp [Ty.each, Ty.useOnly, Ty.useOnly_true t]
  | .choice _ cs => by simp [Ty.each, Ty.useOnly, Comps.each_useOnly_true cs]
  | .bad _ => by simp [Ty.each, Ty.useOnly]
theorem Comps.each_useOnly_true : ∀ cs : Comps, cs.each (Ty.useOnly (fun _ => true)) = true
  | .nil => by simp [Comps.each]
  | .cons _ t cs => by simp [Comps.each, Ty.useOnly_true t, Comps.each_useOnly_true cs]
theorem Comps.useOnly_true : ∀ cs : Comps, cs.useOnly (fun _ => true) = true
  | .nil => rfl
  | .cons f _ cs => by simp only [Comps.useOnly, Comps.useOnly_true cs, Bool.and_true]; split <;> rfl
end

mutual
theorem Ty.useOnly_closed : ∀ t : Ty, t.each Ty.closed = true → t.each (Ty.useOnly (fun _ => false)) = true
  | .prim _ _, _ => by simp [Ty.each, Ty.useOnly]
  | .seq _ _ cs, h => by
    simp only [Ty.each, Ty.closed, Bool.and_eq_true] at h
    simp [Ty.each, Ty.useOnly, Comps.useOnly_closed cs h.1, Comps.each_useOnly_closed cs h.2]
  | .of _ _ t, h => by
    simp only [Ty.each, Bool.and_eq_true] at h
    simp [Ty.each, Ty.useOnly, Ty.useOnly_closed t h.2]
  | .choice _ cs, h => by
    simp only [Ty.each, Bool.and_eq_true] at h
    simp [Ty.each, Ty.useOnly, Comps.each_useOnly_closed cs h.2]
  | .bad _, _ => by simp [Ty.each, Ty.useOnly]
theorem Comps.each_useOnly_closed : ∀ cs : Comps, cs.each Ty.closed = true → cs.each (Ty.useOnly (fun _ => false)) = true
  | .nil, _ => by simp [Comps.each]
  | .cons _ t cs, h => by
    simp only [Comps.each, Bool.and_eq_true] at h
    simp [Comps.each, Ty.useOnly_closed t h.1, Comps.each_useOnly_closed cs h.2]
theorem Comps.useOnly_closed : ∀ cs : Comps, cs.noOpen = true → cs.useOnly (fun _ => false) = true
  | .nil, _ => rfl
  | .cons f _ cs, h => by
    simp only [Comps.noOpen, Bool.and_eq_true, Option.isNone_iff_eq_none] at h
    simp [Comps.useOnly, h.1, Comps.useOnly_closed cs h.2]
end

/-- Where there are no open types it does not matter what is in the dictionaries. -/
theorem steady_closed : Steady (fun _ => false) L F D f := ⟨fun _ _ h => by simp at h, fun _ _ _ h => by simp at h⟩

/-- With dictionaries that do not change there is one result, that of `odecode`. -/
theorem wdecode_steady (D : Registry) : ∀ (n : Nat) (t : Ty) (b : Bytes), wdecode D.looks n t b = lift (odecode D n t b)
  | 0, _, _ => rfl
  | n + 1, t, b => by
    simp only [wdecode, odecode]
    cases readTLV b with
    | none => simp only [bind_none, fail_lift]
    | some x =>
      simp only [bind_some]
      have hs : Steady (fun _ => true) D.looks (fun u c => (wdecode D.looks n u c).bind (fun p => ret p.1)) D
          (fun u c => (odecode D n u c).map Prod.fst) := by
        refine ⟨fun _ _ _ => rfl, fun _ _ u _ _ c => ?_⟩
        simp only [wdecode_steady D n u c]
        cases odecode D n u c <;> simp only [bind_none, bind_some, ret_lift, fail_lift, Option.map_none, Option.map_some]
      rw [wdecT_det hs t x.1 (Ty.useOnly_true t)]
      cases odecT D (fun u c => (odecode D n u c).map Prod.fst) t x.1 <;> simp only [bind_none, bind_some, ret_lift, fail_lift]

end Asn1
end Verif
