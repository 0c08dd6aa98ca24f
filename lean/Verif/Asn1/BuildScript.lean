import Verif.Asn1.BuildSteps

/-!
# Reading after assigning; building a value step by step
-/

namespace Verif
namespace Asn1

/-! ## Slots -/

theorem Slots.get?_set : ∀ (ss : Slots) (i : Nat) (c : Obj), (ss.set c i).get? i = some c
  | ss, 0, c => rfl
  | ss, i + 1, c => by simp only [Slots.set, Slots.get?, Slots.tail_cons, Slots.get?_set ss.tail i c]

theorem Slots.get?_set_ne : ∀ (ss : Slots) (i j : Nat) (c : Obj), i ≠ j → (ss.set c i).get? j = ss.get? j
  | ss, 0, 0, c, h => absurd rfl h
  | ss, 0, j + 1, c, _ => rfl
  | ss, i + 1, 0, c, _ => by simp only [Slots.set, Slots.get?, Slots.head_cons]
  | ss, i + 1, j + 1, c, h => by
    simp only [Slots.set, Slots.get?, Slots.tail_cons, Slots.get?_set_ne ss.tail i j c (by omega)]

theorem Slots.cons_cons (o : Option Obj) (ss : Slots) (p : Option Obj) (ts : Slots) :
    Slots.cons (Slots.cons o ss).head ts = Slots.cons p ts ↔ o = p := by
  cases o <;> cases p <;> simp [Slots.cons, Slots.head]

theorem Slots.set_set : ∀ (ss : Slots) (i : Nat) (c d : Obj), (ss.set c i).set d i = ss.set d i
  | ss, 0, c, d => rfl
  | ss, i + 1, c, d => by simp only [Slots.set, Slots.head_cons, Slots.tail_cons, Slots.set_set ss.tail i c d]

/-! ## Reading after changing -/

/-- Reading where something was changed finds what was put there. -/
theorem look_atPath (g : Ty → Obj → Option Obj) : ∀ (p : List Nat) (t : Ty) (o o' : Obj), atPath g t o p = some o' →
    ∃ u c c', look t o p = some (u, c) ∧ g u c = some c' ∧ look t o' p = some (u, c')
  | [], t, o, o', h => ⟨t, o, o', rfl, by simpa [atPath] using h, rfl⟩
  | i :: p, .prim _ _, o, o', h => by simp [atPath] at h
  | i :: p, .bad _, o, o', h => by simp [atPath] at h
  | i :: p, .seq s a cs, o, o', h => by
    simp only [atPath] at h
    cases hc : cs.get? i with
    | none => simp [hc] at h
    | some ft =>
      obtain ⟨f, t⟩ := ft
      simp only [hc, Option.map_eq_some_iff] at h
      obtain ⟨c, h, rfl⟩ := h
      simp only [look, hc, Obj.slots, Slots.get?_set, Option.getD_some]
      exact look_atPath g p t _ c h
  | i :: p, .of s a t, o, o', h => by
    simp only [atPath] at h
    cases hc : o.elems[i]? with
    | none =>
      simp only [hc] at h
      split at h
      · rename_i hi
        simp only [Option.map_eq_some_iff] at h
        obtain ⟨c, h, rfl⟩ := h
        subst hi
        simp only [look, hc, if_true, Obj.elems_list, List.getElem?_concat_length]
        exact look_atPath g p t _ c h
      · simp at h
    | some q =>
      simp only [hc, Option.map_eq_some_iff] at h
      obtain ⟨c, h, rfl⟩ := h
      have hi : i < o.elems.length := (List.getElem?_eq_some_iff.1 hc).1
      simp only [look, hc, Obj.elems_list, List.getElem?_set_self hi]
      exact look_atPath g p t _ c h
  | i :: p, .choice a cs, o, o', h => by
    simp only [atPath] at h
    cases hc : cs.get? i with
    | none => simp [hc] at h
    | some ft =>
      obtain ⟨f, t⟩ := ft
      simp only [hc, Option.map_eq_some_iff] at h
      obtain ⟨c, h, rfl⟩ := h
      simp only [look, hc, Obj.under, if_true]
      exact look_atPath g p t _ c h

/-- The paths part at a SEQUENCE, SET, SEQUENCE OF or SET OF. -/
def apart : Ty → List Nat → List Nat → Bool
  | .seq _ _ cs, i :: p, j :: q => if i = j then (match cs.get? i with
    | some (_, t) => apart t p q
    | none => false) else true
  | .of _ _ t, i :: p, j :: q => if i = j then apart t p q else true
  | .choice _ cs, i :: p, j :: q => if i = j then (match cs.get? i with
    | some (_, t) => apart t p q
    | none => false) else false
  | _, _, _ => false

/-- Reading elsewhere finds what was there. -/
theorem look_atPath_apart (g : Ty → Obj → Option Obj) : ∀ (p q : List Nat) (t : Ty) (o o' : Obj) (r : Ty × Obj),
    apart t p q = true → atPath g t o p = some o' → look t o q = some r → look t o' q = some r
  | [], _, t, _, _, _, h, _, _ => by cases t <;> simp [apart] at h
  | _ :: _, [], t, _, _, _, h, _, _ => by cases t <;> simp [apart] at h
  | _ :: _, _ :: _, .prim _ _, _, _, _, h, _, _ => by simp [apart] at h
  | _ :: _, _ :: _, .bad _, _, _, _, h, _, _ => by simp [apart] at h
  | i :: p, j :: q, .seq s a cs, o, o', r, ha, h, hl => by
    simp only [apart] at ha
    simp only [atPath] at h
    cases hc : cs.get? i with
    | none => simp [hc] at h
    | some ft =>
      obtain ⟨f, t⟩ := ft
      simp only [hc, Option.map_eq_some_iff] at h ha
      obtain ⟨c, h, rfl⟩ := h
      simp only [look, Obj.slots] at hl ⊢
      split at ha
      · rename_i hij
        subst hij
        simp only [hc, Slots.get?_set, Option.getD_some] at hl ⊢
        exact look_atPath_apart g p q t _ c r ha h hl
      · rename_i hij
        rw [Slots.get?_set_ne _ _ _ _ hij]
        exact hl
  | i :: p, j :: q, .of s a t, o, o', r, ha, h, hl => by
    simp only [apart] at ha
    simp only [atPath] at h
    cases hc : o.elems[i]? with
    | none =>
      simp only [hc] at h
      split at h
      · rename_i hi
        simp only [Option.map_eq_some_iff] at h
        obtain ⟨c, h, rfl⟩ := h
        simp only [look, Obj.elems_list] at hl ⊢
        split at ha
        · rename_i hij
          subst hij
          simp only [hc, if_pos hi] at hl
          subst hi
          simp only [List.getElem?_concat_length]
          exact look_atPath_apart g p q t _ c r ha h hl
        · rename_i hij
          cases hj : o.elems[j]? with
          | none =>
            simp only [hj] at hl
            rw [if_neg (by omega)] at hl
            simp at hl
          | some d =>
            simp only [hj] at hl
            have := (List.getElem?_eq_some_iff.1 hj).1
            rw [List.getElem?_append_left this, hj]
            exact hl
      · simp at h
    | some d =>
      simp only [hc, Option.map_eq_some_iff] at h
      obtain ⟨c, h, rfl⟩ := h
      have hi : i < o.elems.length := (List.getElem?_eq_some_iff.1 hc).1
      simp only [look, Obj.elems_list] at hl ⊢
      split at ha
      · rename_i hij
        subst hij
        simp only [hc, List.getElem?_set_self hi] at hl ⊢
        exact look_atPath_apart g p q t _ c r ha h hl
      · rename_i hij
        rw [List.getElem?_set_ne hij, List.length_set]
        exact hl
  | i :: p, j :: q, .choice a cs, o, o', r, ha, h, hl => by
    simp only [apart] at ha
    simp only [atPath] at h
    cases hc : cs.get? i with
    | none => simp [hc] at h
    | some ft =>
      obtain ⟨f, t⟩ := ft
      simp only [hc, Option.map_eq_some_iff] at h ha
      obtain ⟨c, h, rfl⟩ := h
      split at ha
      · rename_i hij
        subst hij
        simp only [look, hc, Obj.under, if_true] at hl ⊢
        exact look_atPath_apart g p q t _ c r ha h hl
      · simp at ha

/-! ## Step by step -/

/-- Assignments, one after the other. -/
def run (t : Ty) (o : Obj) : List (List Nat × Obj) → Option Obj
  | [] => some o
  | s :: ss => (assignAt t o s.1 s.2).bind (fun o => run t o ss)

theorem run_append (t : Ty) : ∀ (s r : List (List Nat × Obj)) (o : Obj), run t o (s ++ r) = (run t o s).bind (fun o => run t o r)
  | [], _, _ => rfl
  | x :: s, r, o => by
    simp only [List.cons_append, run]
    cases assignAt t o x.1 x.2 with
    | none => rfl
    | some o' => simp only [Option.bind_some, run_append t s r o']

/-- In component `i`. -/
def push (i : Nat) (s : List Nat × Obj) : List Nat × Obj := (i :: s.1, s.2)

/-- In the component after. -/
def bump : List Nat × Obj → List Nat × Obj
  | (i :: p, y) => ((i + 1) :: p, y)
  | s => s

/-- The steps for the elements of a list. -/
def number : Nat → List (List (List Nat × Obj)) → List (List Nat × Obj)
  | _, [] => []
  | i, s :: ss => s.map (push i) ++ number (i + 1) ss

mutual
/-- The steps that build a value: collections are emptied (`clear()`), scalars are assigned. -/
def script : Ty → Val → List (List Nat × Obj)
  | .prim _ _, v => [([], .leaf v)]
  | .seq _ _ cs, .record vs => ([], .record .nil) :: scriptC cs vs
  | .of _ _ t, .list vs => ([], .list .nil) :: number 0 (vs.toList.map (script t))
  | .choice _ cs, .alt i v => (scriptAlt cs i v).map (push i)
  | _, _ => []
def scriptC : Comps → Vals → List (List Nat × Obj)
  | .cons f t cs, .cons v vs =>
    (if v = .absent ∨ f.mode = .dflt v then [] else (script t v).map (push 0)) ++ (scriptC cs vs).map bump
  | _, _ => []
def scriptAlt : Comps → Nat → Val → List (List Nat × Obj)
  | .cons _ t _, 0, v => script t v
  | .cons _ _ cs, i + 1, v => scriptAlt cs i v
  | .nil, _, _ => []
end

/-- What an assignment does in component `i` is what it does in the whole, if the whole is made of the component and the rest. -/
theorem run_push (T t : Ty) (i : Nat) (P : Obj → Prop) (get : Obj → Obj) (put : Obj → Obj → Obj)
    (hm : ∀ g o p, P o → atPath g T o (i :: p) = (atPath g t (get o) p).map (put o))
    (hP : ∀ o c, P o → P (put o c)) (hg : ∀ o c, P o → get (put o c) = c) (hp : ∀ o c d, P o → put (put o c) d = put o d) :
    ∀ (s : List (List Nat × Obj)) (o : Obj), P o → s ≠ [] → run T o (s.map (push i)) = (run t (get o) s).map (put o)
  | [], _, _, h => absurd rfl h
  | [x], o, hPo, _ => by
    simp only [List.map_cons, List.map_nil, run, assignAt, push, hm _ _ _ hPo]
    cases atPath _ t (get o) x.1 <;> rfl
  | x :: y :: s, o, hPo, _ => by
    have ih := fun o h => run_push T t i P get put hm hP hg hp (y :: s) o h (by simp)
    rw [List.map_cons, run, run]
    simp only [assignAt, push, hm _ _ _ hPo]
    cases hx : atPath (place x.2) t (get o) x.1 with
    | none => rfl
    | some c =>
      simp only [Option.map_some, Option.bind_some]
      rw [ih _ (hP o c hPo), hg o c hPo]
      cases run t c (y :: s) with
      | none => rfl
      | some d => simp only [Option.map_some, hp o c d hPo]

theorem run_push_seq {s : Bool} {a : Attrs} {cs : Comps} {i : Nat} {f : Field} {t : Ty} (hc : cs.get? i = some (f, t))
    (st : List (List Nat × Obj)) (ss : Slots) (hs : st ≠ []) : run (.seq s a cs) (.record ss) (st.map (push i)) =
      (run t ((ss.get? i).getD (.initial f t)) st).map (fun c => .record (ss.set c i)) :=
  run_push (.seq s a cs) t i (fun _ => True) (fun o => (o.slots.get? i).getD (.initial f t)) (fun o c => .record (o.slots.set c i))
    (fun g o p _ => by simp only [atPath, hc]) (fun _ _ _ => trivial)
    (fun o c _ => by simp only [Obj.slots, Slots.get?_set, Option.getD_some])
    (fun o c d _ => by simp only [Obj.slots, Slots.set_set]) st (.record ss) trivial hs

theorem run_push_choice {a : Attrs} {cs : Comps} {i : Nat} {f : Field} {t : Ty} (hc : cs.get? i = some (f, t))
    (st : List (List Nat × Obj)) (o : Obj) (hs : st ≠ []) : ∃ q, run (.choice a cs) o (st.map (push i)) =
      (run t q st).map (.chosen i) :=
  ⟨_, run_push (.choice a cs) t i (fun _ => True) (fun o => o.under f t i) (fun _ c => .chosen i c)
    (fun g o p _ => by simp only [atPath, hc]) (fun _ _ _ => trivial)
    (fun o c _ => by simp [Obj.under]) (fun o c d _ => rfl) st o trivial hs⟩

theorem run_push_of {s : Bool} {a : Attrs} {t : Ty} (st : List (List Nat × Obj)) (os : List Obj) (hs : st ≠ []) :
    run (.of s a t) (.list (.ofList os)) (st.map (push os.length)) =
      (run t (.fresh t) st).map (fun c => .list (.ofList (os ++ [c]))) := by
  have hlen : os[os.length]? = none := by simp
  have h := run_push (.of s a t) t os.length (fun o => o = .list (.ofList os) ∨ ∃ c, o = .list (.ofList (os ++ [c])))
    (fun o => (o.elems[os.length]?).getD (.fresh t)) (fun _ c => .list (.ofList (os ++ [c])))
    (by
      rintro g o p (rfl | ⟨c, rfl⟩)
      · simp only [atPath, Obj.elems_list, hlen, if_true, Option.getD_none]
      · simp only [atPath, Obj.elems_list, List.getElem?_concat_length, Option.getD_some]
        congr 1
        funext d
        simp)
    (fun _ c _ => .inr ⟨c, rfl⟩) (fun o c _ => by simp [Obj.elems_list]) (fun _ _ _ _ => rfl)
    st (.list (.ofList os)) (.inl rfl) hs
  rw [h]
  simp only [Obj.elems_list, hlen, Option.getD_none]

/-- Assignments to the components after the first one. -/
theorem run_bump {s : Bool} {a : Attrs} {f : Field} {t : Ty} {cs : Comps} : ∀ (st : List (List Nat × Obj)) (ss rs : Slots),
    (∀ x ∈ st, x.1 ≠ []) → run (.seq s a cs) (.record ss.tail) st = some (.record rs) →
    run (.seq s a (.cons f t cs)) (.record ss) (st.map bump) = some (.record (if st = [] then ss else .cons ss.head rs))
  | [], ss, rs, _, _ => by simp [run]
  | x :: st, ss, rs, hx, h => by
    obtain ⟨p, y⟩ := x
    cases p with
    | nil => exact absurd rfl (hx ([], y) (by simp))
    | cons i p =>
      rw [run] at h
      simp only [List.map_cons, bump]
      rw [run]
      simp only [assignAt, atPath, Comps.get?, Obj.slots, Slots.get?] at h ⊢
      cases hc : cs.get? i with
      | none => simp [hc] at h
      | some ft =>
        obtain ⟨f', t'⟩ := ft
        simp only [hc] at h
        simp only
        cases hm : atPath (place y) t' ((ss.tail.get? i).getD (.initial f' t')) p with
        | none => simp [hm] at h
        | some c =>
          simp only [hm, Option.map_some, Option.bind_some] at h ⊢
          rw [run_bump st (ss.set c (i + 1)) rs (fun z hz => hx z (by simp [hz]))
            (by simpa only [Slots.set, Slots.tail_cons] using h)]
          simp only [reduceCtorEq, if_false, Option.some.injEq, Obj.record.injEq, Slots.set, Slots.head_cons]
          split
          · rename_i hst
            subst hst
            simp only [run, Option.some.injEq, Obj.record.injEq] at h
            rw [h]
          · rfl

theorem scriptC_paths : ∀ (cs : Comps) (vs : Vals), ∀ x ∈ scriptC cs vs, x.1 ≠ []
  | .nil, vs, x, h => by simp [scriptC] at h
  | .cons f t cs, vs, x, h => by
    cases vs with
    | nil => simp [scriptC] at h
    | cons v vs =>
      simp only [scriptC, List.mem_append, List.mem_map] at h
      rcases h with h | ⟨y, hy, rfl⟩
      · split at h
        · simp at h
        · simp only [List.mem_map] at h
          obtain ⟨y, _, rfl⟩ := h
          simp [push]
      · have := scriptC_paths cs vs y hy
        obtain ⟨p, z⟩ := y
        cases p with
        | nil => exact absurd rfl this
        | cons i p => simp [bump]

theorem Comps.validAlt_get : ∀ (cs : Comps) (i : Nat) (v : Val), cs.validAlt i v = true →
    ∃ f t, cs.get? i = some (f, t) ∧ t.valid v = true ∧ scriptAlt cs i v = script t v
  | .nil, _, _, h => by simp [Comps.validAlt] at h
  | .cons f t _, 0, v, h => ⟨f, t, rfl, h, rfl⟩
  | .cons _ _ cs, i + 1, v, h => Comps.validAlt_get cs i v h

theorem Comps.valueAlt_get : ∀ (cs : Comps) (i : Nat) (f : Field) (t : Ty) (o : Obj), cs.get? i = some (f, t) →
    cs.valueAlt i o = t.value o
  | .nil, _, _, _, _, h => by simp [Comps.get?] at h
  | .cons _ _ _, 0, f, t, o, h => by
    simp only [Comps.get?, Option.some.injEq, Prod.mk.injEq] at h
    obtain ⟨rfl, rfl⟩ := h
    rfl
  | .cons _ _ cs, i + 1, f, t, o, h => Comps.valueAlt_get cs i f t o h

theorem number_run {s : Bool} {a : Attrs} {t : Ty} (P : Val → Obj → Prop)
    : ∀ (vs : List Val) (os : List Obj), (∀ v ∈ vs, script t v ≠ [] ∧ ∃ c, run t (.fresh t) (script t v) = some c ∧ P v c) →
      ∃ qs, run (.of s a t) (.list (.ofList os)) (number os.length (vs.map (script t))) = some (.list (.ofList (os ++ qs))) ∧
        all2 P vs qs
  | [], os, _ => ⟨[], by simp [number, run], trivial⟩
  | v :: vs, os, h => by
    obtain ⟨hne, c, hc, hP⟩ := h v (by simp)
    obtain ⟨qs, h1, h2⟩ := number_run P vs (os ++ [c]) (fun w hw => h w (by simp [hw]))
    refine ⟨c :: qs, ?_, hP, h2⟩
    simp only [List.map_cons, number]
    rw [run_append, run_push_of _ _ hne, hc]
    simp only [Option.map_some, Option.bind_some]
    simpa using h1

theorem mapOpt_of_all2 {α β : Type} {f : β → Option α} : ∀ {l : List α} {m : List β}, all2 (fun a b => f b = some a) l m → mapOpt f m = some l
  | [], [], _ => rfl
  | a :: l, b :: m, ⟨h1, h2⟩ => by simp only [mapOpt, h1, mapOpt_of_all2 h2]
  | [], _ :: _, h => h.elim
  | _ :: _, [], h => h.elim

/-- The object has the value. -/
def Ty.Holds (t : Ty) (v : Val) (o : Obj) : Prop := t.fits o = true ∧ t.isValue o = true ∧ t.value o = some v

mutual
/-- The steps for a legal value build it, whatever the object was before. -/
theorem script_spec : ∀ (t : Ty) (v : Val), t.neutral = true → t.whole = true → t.valid v = true →
    script t v ≠ [] ∧ ∀ o, ∃ o', run t o (script t v) = some o' ∧ t.Holds v o'
  | .prim k a, v, _, _, h => by
    simp only [Ty.valid, Bool.and_eq_true] at h
    have hf : (Ty.prim k a).fits (.leaf v) = true := by
      simp only [Ty.fits, Bool.and_eq_true]; exact ⟨primKind_of_legal k v h.1.1, h.1.2⟩
    refine ⟨by simp [script], fun o => ⟨.leaf v, ?_, hf, rfl, rfl⟩⟩
    simp [script, run, assignAt, atPath, place, hf]
  | .bad _, v, _, _, h => by simp [Ty.valid] at h
  | .seq s a cs, v, hn, hw, h => by
    cases v <;> simp only [Ty.valid, Bool.false_eq_true, Bool.and_eq_true] at h
    rename_i vs
    simp only [Ty.neutral, Bool.and_eq_true] at hn
    obtain ⟨rs, h1, h2, h3, h4⟩ := scriptC_spec s a cs vs hn.2 hw h.1
    refine ⟨by simp [script], fun o => ⟨.record rs, ?_, h2, h3, by simp only [Ty.value, h4, Option.map_some]⟩⟩
    simp only [script, run, assignAt, atPath, place]
    rw [if_pos (by simp only [Ty.fits]; exact Comps.fits_nil cs)]
    exact h1
  | .of s a t, v, hn, hw, h => by
    cases v <;> simp only [Ty.valid, Bool.false_eq_true, Bool.and_eq_true, Vals.every_all, List.all_eq_true] at h
    rename_i vs
    obtain ⟨qs, h1, h2⟩ := number_run (s := s) (a := a) (t := t) (t.Holds) vs.toList []
      (fun v hv => ⟨(script_spec t v hn hw (h.1 v hv)).1, (script_spec t v hn hw (h.1 v hv)).2 _⟩)
    refine ⟨by simp [script], fun o => ⟨.list (.ofList qs), ?_, ?_, ?_, ?_⟩⟩
    · simp only [script, run, assignAt, atPath, place]
      rw [if_pos (by simp [Ty.fits, Objs.toList])]
      simpa [Objs.ofList] using h1
    · simp only [Ty.fits, Objs.toList_ofList, List.all_eq_true]
      intro q hq
      obtain ⟨v, _, hv⟩ := all2_mem_right h2 q hq
      exact hv.1
    · simp only [Ty.isValue, Objs.toList_ofList, List.all_eq_true]
      intro q hq
      obtain ⟨v, _, hv⟩ := all2_mem_right h2 q hq
      exact hv.2.1
    · simp only [Ty.value, Objs.toList_ofList]
      rw [mapOpt_of_all2 (all2_imp (fun v q h => h.2.2) h2)]
      simp only [Option.map_some, Vals.ofList_toList']
  | .choice a cs, v, hn, hw, h => by
    cases v <;> simp only [Ty.valid, Bool.false_eq_true] at h
    rename_i i v
    obtain ⟨f, t, hc, hs⟩ := scriptAlt_spec cs i v hn hw h
    refine ⟨by simpa [script] using hs.1, fun o => ?_⟩
    obtain ⟨q, hq⟩ := run_push_choice (a := a) hc (scriptAlt cs i v) o hs.1
    obtain ⟨o', h1, h2, h3, h4⟩ := hs.2 q
    refine ⟨.chosen i o', by simp only [script, hq, h1, Option.map_some], ?_, ?_, ?_⟩
    · simp only [Ty.fits, Comps.fitsAlt_get cs i f t _ hc, h2]
    · simp only [Ty.isValue, Comps.isValueAlt_get cs i f t _ hc, h3]
    · simp only [Ty.value, Comps.valueAlt_get cs i f t _ hc, h4, Option.map_some]
theorem scriptC_spec : ∀ (s : Bool) (a : Attrs) (cs : Comps) (vs : Vals), cs.neutral = true → cs.whole = true → cs.valid vs = true →
    ∃ rs, run (.seq s a cs) (.record .nil) (scriptC cs vs) = some (.record rs) ∧ cs.fits rs = true ∧ cs.isValue rs = true ∧
      cs.values rs = some vs
  | s, a, .nil, vs, _, _, h => by
    cases vs <;> simp only [Comps.valid, Bool.false_eq_true] at h
    exact ⟨.nil, rfl, rfl, rfl, rfl⟩
  | s, a, .cons f t cs, vs, hn, hw, h => by
    have hi := Obj.fits_initial f t cs hn
    cases vs <;> simp only [Comps.valid, Bool.false_eq_true, Bool.and_eq_true] at h
    rename_i v vs
    simp only [Comps.neutral, Bool.and_eq_true] at hn
    simp only [Comps.whole, Bool.and_eq_true] at hw
    obtain ⟨rs, h1, h2, h3, h4⟩ := scriptC_spec s a cs vs hn.2 hw.2 h.2
    -- the first component
    have hfirst : ∃ ho : Option Obj, run (.seq s a (.cons f t cs)) (.record .nil)
          (if v = .absent ∨ f.mode = .dflt v then [] else (script t v).map (push 0)) =
            some (.record (match ho with | none => .nil | some c => .put c .nil)) ∧
        t.fits (ho.getD (.initial f t)) = true ∧ (!f.mode.isReq || t.isValue (ho.getD (.initial f t))) = true ∧
        (if (f.mode.lax && !t.isValue (ho.getD (.initial f t))) = true then some Val.absent
          else t.value (ho.getD (.initial f t))) = some v := by
      by_cases hv : v = .absent ∨ f.mode = .dflt v
      · rw [if_pos hv]
        refine ⟨none, rfl, hi (Ty.ne_bad hw.1), ?_⟩
        have hcase : f.mode = .req ∨ f.mode = .opt ∨ ∃ d, f.mode = .dflt d := by cases f.mode <;> simp
        rcases hcase with hm | hm | ⟨d, hm⟩
        · simp only [hm, reduceCtorEq, or_false] at hv h
          exact absurd hv (Ty.valid_ne_absent t v h.1)
        · simp only [hm, reduceCtorEq, or_false] at hv
          have hi : Obj.initial f t = .fresh t := by simp only [Obj.initial, hm]
          simp [hi, hm, Mode.isReq, Mode.lax, Ty.isValue_fresh, hv]
        · have hvd : v = d := by
            simp only [hm, Mode.dflt.injEq, Bool.or_eq_true, beq_iff_eq] at hv h
            rcases hv with hv | hv
            · rcases h.1 with h | h
              · exact h
              · exact absurd hv (Ty.valid_ne_absent t v h)
            · exact hv.symm
          subst hvd
          simp only [hm, Bool.or_eq_true, beq_iff_eq] at hn
          by_cases hva : v = .absent
          · have hi : Obj.initial f t = .fresh t := by simp only [Obj.initial, hm, if_pos hva]
            simp [hi, hm, Mode.isReq, Mode.lax, hva, Ty.isValue_fresh]
          · obtain ⟨_, _, g⟩ := Obj.of_spec t v hn.1.2 (hn.1.1.resolve_left hva)
            have hi : Obj.initial f t = .of t v := by simp only [Obj.initial, hm, if_neg hva]
            simp [hi, hm, Mode.isReq, Mode.lax, hva, g]
      · rw [if_neg hv]
        rw [not_or] at hv
        have hval : t.valid v = true := by
          cases hm : f.mode with
          | req => simpa only [hm] using h.1
          | opt =>
            simp only [hm, Bool.or_eq_true, beq_iff_eq] at h
            exact h.1.resolve_left hv.1
          | dflt d =>
            simp only [hm, Bool.or_eq_true, beq_iff_eq, Mode.dflt.injEq] at h hv
            exact h.1.resolve_left (fun h => hv.2 h.symm)
        obtain ⟨hne, hs⟩ := script_spec t v hn.1.2 hw.1 hval
        obtain ⟨c, g1, g2, g3, g4⟩ := hs (.initial f t)
        refine ⟨some c, ?_, g2, by simp [g3], by simp [g3, g4]⟩
        rw [run_push_seq (f := f) (t := t) rfl _ _ hne]
        simp only [Slots.get?, Slots.head, Option.getD_none, g1, Option.map_some]
        rfl
    obtain ⟨ho, e1, e2, e3, e4⟩ := hfirst
    have htail : (match ho with | none => Slots.nil | some c => .put c .nil).tail = .nil := by cases ho <;> rfl
    have hhead : (match ho with | none => Slots.nil | some c => .put c .nil).head = ho := by cases ho <;> rfl
    generalize hss : (match ho with | none => Slots.nil | some c => .put c .nil) = ss at *
    refine ⟨if scriptC cs vs = [] then ss else .cons ss.head rs, ?_, ?_⟩
    · simp only [scriptC]
      rw [run_append, e1]
      exact run_bump _ ss rs (scriptC_paths cs vs) (by rw [htail]; exact h1)
    · have hrs : scriptC cs vs = [] → rs = .nil := by
        intro hnil
        rw [hnil] at h1
        simpa [run, eq_comm] using h1
      have hd : (if scriptC cs vs = [] then ss else Slots.cons ss.head rs).head = ho := by
        split
        · exact hhead
        · rw [Slots.head_cons, hhead]
      have ht : (if scriptC cs vs = [] then ss else Slots.cons ss.head rs).tail = rs := by
        split
        · rename_i hnil; rw [htail, hrs hnil]
        · rw [Slots.tail_cons]
      simp only [Comps.fits, Comps.isValue_cons, Comps.values, Slots.first, hd, ht, h2, h3, h4, e3, e4, Bool.and_true,
        and_true]
      cases ho with
      | none => rfl
      | some c => exact e2
theorem scriptAlt_spec : ∀ (cs : Comps) (i : Nat) (v : Val), cs.neutral = true → cs.whole = true → cs.validAlt i v = true →
    ∃ f t, cs.get? i = some (f, t) ∧ scriptAlt cs i v ≠ [] ∧ ∀ o, ∃ o', run t o (scriptAlt cs i v) = some o' ∧ t.Holds v o'
  | .nil, _, _, _, _, h => by simp [Comps.validAlt] at h
  | .cons f t _, 0, v, hn, hw, h => by
    simp only [Comps.neutral, Bool.and_eq_true] at hn
    simp only [Comps.whole, Bool.and_eq_true] at hw
    exact ⟨f, t, rfl, script_spec t v hn.1.2 hw.1 h⟩
  | .cons _ _ cs, i + 1, v, hn, hw, h => by
    simp only [Comps.neutral, Bool.and_eq_true] at hn
    simp only [Comps.whole, Bool.and_eq_true] at hw
    exact scriptAlt_spec cs i v hn.2 hw.2 h
end

end Asn1
end Verif
