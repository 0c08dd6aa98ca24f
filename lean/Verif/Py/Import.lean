import Verif.Py.Obj

/-!
# Importing modules

What `import` does, as far as the dictionaries at module level are concerned:
a module's body runs once, the first time the module is imported; it first
imports other modules and then creates and updates dictionaries.  (In every
module of the package all imports precede all dictionary operations;
`tools/gen.py` checks this.)
-/

namespace Verif
namespace Py

open Asn1

/-- The dictionaries in existence, by the variable that first held them, each as a lookup function. -/
abbrev Dicts := Ident → Option (Val → Option Ty)

/-- `d[k] = t`, one entry after the other. -/
def putAll (d : Val → Option Ty) : Entries → Val → Option Ty
  | [] => d
  | (k, t) :: es => putAll (fun x => if x = k then some t else d x) es

/-- One dictionary operation; `none` where Python raises `NameError`/`AttributeError`. -/
def Effect.run : Effect → Dicts → Option Dicts
  | .create m es, ds => some (fun x => if x = m then some (putAll (fun _ => none) es) else ds x)
  | .update m es, ds =>
    match ds m with
    | none => none
    | some d => some (fun x => if x = m then some (putAll d es) else ds x)
  -- a second name for an existing dictionary; uses of the second name refer to the first
  | .alias _ t, ds =>
    match ds t with
    | none => none
    | some _ => some ds

def runAll : List Effect → Dicts → Option Dicts
  | [], ds => some ds
  | e :: es, ds =>
    match e.run ds with
    | none => none
    | some ds => runAll es ds

/-- The interpreter: modules in `sys.modules`, and the dictionaries. -/
structure State where
  loaded : List Ident
  dicts : Dicts

/-- Nothing imported yet. -/
def State.start : State := ⟨[], fun _ => none⟩

/-- Fold over a list, stopping at the first failure. -/
def foldOpt {α σ : Type} (f : α → σ → Option σ) : List α → σ → Option σ
  | [], s => some s
  | x :: xs, s =>
    match f x s with
    | none => none
    | some s => foldOpt f xs s

/-- `import n`.  `fuel` bounds the depth of nested imports. -/
def load (ms : List Module) : Nat → Ident → State → Option State
  | fuel, n, s =>
    if n ∈ s.loaded then some s
    else
      match ms.find? (fun m => m.id = n) with
      | none => none
      | some m =>
        match fuel with
        | 0 => none
        | fuel + 1 =>
          match foldOpt (load ms fuel) m.imports ⟨n :: s.loaded, s.dicts⟩ with
          | none => none
          | some s' =>
            match runAll m.effects s'.dicts with
            | none => none
            | some ds => some ⟨s'.loaded, ds⟩

/-- A program: import these modules, in this order. -/
def importAll (ms : List Module) (fuel : Nat) (ns : List Ident) (s : State) : Option State :=
  foldOpt (load ms fuel) ns s

/-- What a dictionary holds under a key. -/
def State.get (s : State) (m : Ident) (k : Val) : Option Ty := (s.dicts m).bind (fun d => d k)

/-! ## What a list of operations writes -/

def Effect.writes : Effect → List (Ident × Val × Ty)
  | .create m es => es.map (fun e => (m, e.1, e.2))
  | .update m es => es.map (fun e => (m, e.1, e.2))
  | .alias _ _ => []

def Effect.creates : Effect → List Ident
  | .create m _ => [m]
  | _ => []

def Module.writes (m : Module) : List (Ident × Val × Ty) := m.effects.flatMap Effect.writes
def Module.creates (m : Module) : List Ident := m.effects.flatMap Effect.creates

def look (ds : Dicts) (m : Ident) (k : Val) : Option Ty := (ds m).bind (fun d => d k)

theorem putAll_some (es : Entries) (d : Val → Option Ty) (k : Val) (t : Ty) (h : putAll d es k = some t) :
    (k, t) ∈ es ∨ d k = some t := by
  induction es generalizing d with
  | nil => exact Or.inr h
  | cons e es ih =>
    obtain ⟨k', t'⟩ := e
    simp only [putAll] at h
    rcases ih _ h with h | h
    · exact Or.inl (List.mem_cons_of_mem _ h)
    · by_cases hk : k = k'
      · simp only [hk, if_true, Option.some.injEq] at h
        rw [hk, ← h]; exact Or.inl (by simp)
      · simp only [hk, if_false] at h
        exact Or.inr h

theorem putAll_mono (es : Entries) (d : Val → Option Ty) (k : Val) (h : d k ≠ none) : putAll d es k ≠ none := by
  induction es generalizing d with
  | nil => exact h
  | cons e es ih =>
    obtain ⟨k', t'⟩ := e
    simp only [putAll]
    apply ih
    by_cases hk : k = k'
    · simp [hk]
    · simpa [hk] using h

theorem putAll_mem (es : Entries) (d : Val → Option Ty) (k : Val) (t : Ty) (h : (k, t) ∈ es) : putAll d es k ≠ none := by
  induction es generalizing d with
  | nil => simp at h
  | cons e es ih =>
    obtain ⟨k', t'⟩ := e
    simp only [putAll]
    rcases List.mem_cons.1 h with h | h
    · apply putAll_mono
      simp only [Prod.mk.injEq] at h
      simp [h.1]
    · exact ih _ h

/-- One operation, on dictionaries where nothing it creates exists yet. -/
theorem run_facts (e : Effect) (ds ds' : Dicts) (h : e.run ds = some ds') (hf : ∀ m ∈ e.creates, ds m = none) :
    (∀ m k t, look ds' m k = some t → (m, k, t) ∈ e.writes ∨ look ds m k = some t) ∧
    (∀ m k t, (m, k, t) ∈ e.writes → look ds' m k ≠ none) ∧
    (∀ m k, look ds m k ≠ none → look ds' m k ≠ none) ∧
    (∀ m, ds m ≠ none → ds' m ≠ none) ∧ (∀ m ∈ e.creates, ds' m ≠ none) ∧
    (∀ m, m ∉ e.creates → ds m = none → ds' m = none) := by
  cases e with
  | create c es =>
    simp only [Effect.run, Option.some.injEq] at h
    subst h
    have hc := hf c (by simp [Effect.creates])
    refine ⟨?_, ?_, ?_, ?_, ?_, ?_⟩
    · intro m k t hl
      by_cases hm : m = c
      · subst hm
        simp only [look, if_true, Option.bind_some] at hl
        rcases putAll_some es _ k t hl with hl | hl
        · exact Or.inl (List.mem_map.2 ⟨(k, t), hl, rfl⟩)
        · simp at hl
      · simp only [look, if_neg hm] at hl
        exact Or.inr hl
    · intro m k t hw
      obtain ⟨x, hx, he⟩ := List.mem_map.1 hw
      simp only [Prod.mk.injEq] at he
      obtain ⟨h1, h2, h3⟩ := he
      subst h1; subst h2; subst h3
      simp only [look, if_true, Option.bind_some]
      exact putAll_mem es _ x.1 x.2 hx
    · intro m k hl
      have hm : m ≠ c := by
        intro hm; subst hm; simp [look, hc] at hl
      simpa only [look, if_neg hm] using hl
    · intro m hl
      by_cases hm : m = c <;> simp [hm]
      exact hl
    · intro m hm
      simp only [Effect.creates, List.mem_singleton] at hm
      simp [hm]
    · intro m hm hn
      simp only [Effect.creates, List.mem_singleton] at hm
      simp [hm, hn]
  | update c es =>
    simp only [Effect.run] at h
    cases hd : ds c with
    | none => simp [hd] at h
    | some d =>
      simp only [hd, Option.some.injEq] at h
      subst h
      refine ⟨?_, ?_, ?_, ?_, ?_, ?_⟩
      · intro m k t hl
        by_cases hm : m = c
        · subst hm
          simp only [look, if_true, Option.bind_some] at hl
          rcases putAll_some es _ k t hl with hl | hl
          · exact Or.inl (List.mem_map.2 ⟨(k, t), hl, rfl⟩)
          · exact Or.inr (by simp [look, hd, hl])
        · simp only [look, if_neg hm] at hl
          exact Or.inr hl
      · intro m k t hw
        obtain ⟨x, hx, he⟩ := List.mem_map.1 hw
        simp only [Prod.mk.injEq] at he
        obtain ⟨h1, h2, h3⟩ := he
        subst h1; subst h2; subst h3
        simp only [look, if_true, Option.bind_some]
        exact putAll_mem es _ x.1 x.2 hx
      · intro m k hl
        by_cases hm : m = c
        · subst hm
          simp only [look, hd, Option.bind_some, if_true] at hl ⊢
          exact putAll_mono es d k hl
        · simpa only [look, if_neg hm] using hl
      · intro m hl
        by_cases hm : m = c <;> simp [hm]
        exact hl
      · intro m hm
        simp [Effect.creates] at hm
      · intro m _ hn
        have hm : m ≠ c := by intro hm; subst hm; rw [hd] at hn; simp at hn
        simp [hm, hn]
  | «alias» c t =>
    simp only [Effect.run] at h
    cases hd : ds t with
    | none => simp [hd] at h
    | some d =>
      simp only [hd, Option.some.injEq] at h
      subst h
      exact ⟨fun _ _ _ h => Or.inr h, fun _ _ _ h => by simp [Effect.writes] at h, fun _ _ h => h, fun _ h => h,
        fun _ h => by simp [Effect.creates] at h, fun _ _ h => h⟩

theorem runAll_facts (es : List Effect) (ds ds' : Dicts) (h : runAll es ds = some ds')
    (hn : (es.flatMap Effect.creates).Nodup) (hf : ∀ m ∈ es.flatMap Effect.creates, ds m = none) :
    (∀ m k t, look ds' m k = some t → (m, k, t) ∈ es.flatMap Effect.writes ∨ look ds m k = some t) ∧
    (∀ m k t, (m, k, t) ∈ es.flatMap Effect.writes → look ds' m k ≠ none) ∧
    (∀ m k, look ds m k ≠ none → look ds' m k ≠ none) ∧
    (∀ m, ds m ≠ none → ds' m ≠ none) ∧ (∀ m ∈ es.flatMap Effect.creates, ds' m ≠ none) ∧
    (∀ m, m ∉ es.flatMap Effect.creates → ds m = none → ds' m = none) := by
  induction es generalizing ds with
  | nil =>
    simp only [runAll, Option.some.injEq] at h
    subst h
    exact ⟨fun _ _ _ h => Or.inr h, fun _ _ _ h => by simp at h, fun _ _ h => h, fun _ h => h,
      fun _ h => by simp at h, fun _ _ h => h⟩
  | cons e es ih =>
    simp only [runAll] at h
    cases h1 : e.run ds with
    | none => simp [h1] at h
    | some ds1 =>
      simp only [h1] at h
      rw [List.flatMap_cons] at hn hf
      obtain ⟨a1, a2, a3, a4, a5, a6⟩ := run_facts e ds ds1 h1 (fun m hm => hf m (List.mem_append_left _ hm))
      have hn' := List.nodup_append.1 hn
      have hf1 : ∀ m ∈ es.flatMap Effect.creates, ds1 m = none := by
        intro m hm
        exact a6 m (fun hme => hn'.2.2 m hme m hm rfl) (hf m (List.mem_append_right _ hm))
      obtain ⟨b1, b2, b3, b4, b5, b6⟩ := ih ds1 h hn'.2.1 hf1
      refine ⟨?_, ?_, ?_, ?_, ?_, ?_⟩
      · intro m k t hl
        rw [List.flatMap_cons]
        rcases b1 m k t hl with hl | hl
        · exact Or.inl (List.mem_append_right _ hl)
        · rcases a1 m k t hl with hl | hl
          · exact Or.inl (List.mem_append_left _ hl)
          · exact Or.inr hl
      · intro m k t hw
        rw [List.flatMap_cons] at hw
        rcases List.mem_append.1 hw with hw | hw
        · exact b3 m k (a2 m k t hw)
        · exact b2 m k t hw
      · exact fun m k hl => b3 m k (a3 m k hl)
      · exact fun m hl => b4 m (a4 m hl)
      · intro m hm
        rw [List.flatMap_cons] at hm
        rcases List.mem_append.1 hm with hm | hm
        · exact b4 m (a5 m hm)
        · exact b5 m hm
      · intro m hm hd
        rw [List.flatMap_cons, List.mem_append, not_or] at hm
        exact b6 m hm.2 (a6 m hm.1 hd)

theorem runAll_append (es fs : List Effect) (ds : Dicts) :
    runAll (es ++ fs) ds = (runAll es ds).bind (runAll fs) := by
  induction es generalizing ds with
  | nil => rfl
  | cons e es ih =>
    simp only [List.cons_append, runAll]
    cases e.run ds with
    | none => rfl
    | some ds1 => exact ih ds1

/-! ## Which module bodies ran, in which order -/

/-- `new` lists the modules whose bodies ran between `s` and `s'`. -/
structure Trace (ms : List Module) (s s' : State) (new : List Module) : Prop where
  found : ∀ m ∈ new, ms.find? (fun x => x.id = m.id) = some m
  nodup : (new.map Module.id).Nodup
  fresh : ∀ m ∈ new, m.id ∉ s.loaded
  loaded : ∀ n, n ∈ s'.loaded ↔ n ∈ s.loaded ∨ n ∈ new.map Module.id
  dicts : runAll (new.flatMap Module.effects) s.dicts = some s'.dicts
  closed : ∀ m ∈ new, ∀ i ∈ m.imports, i ∈ s'.loaded

theorem Trace.nil (ms : List Module) (s : State) : Trace ms s s [] where
  found := by simp
  nodup := by simp
  fresh := by simp
  loaded := by simp
  dicts := rfl
  closed := by simp

theorem Trace.append {ms : List Module} {s s' s'' : State} {a b : List Module} (h : Trace ms s s' a)
    (h' : Trace ms s' s'' b) : Trace ms s s'' (a ++ b) where
  found := by
    intro m hm
    rcases List.mem_append.1 hm with hm | hm
    · exact h.found m hm
    · exact h'.found m hm
  nodup := by
    rw [List.map_append]
    refine List.nodup_append.2 ⟨h.nodup, h'.nodup, ?_⟩
    intro x hx y hy hxy
    subst hxy
    obtain ⟨m, hm, hmx⟩ := List.mem_map.1 hy
    have := h'.fresh m hm
    rw [hmx] at this
    exact this ((h.loaded x).2 (Or.inr hx))
  fresh := by
    intro m hm
    rcases List.mem_append.1 hm with hm | hm
    · exact h.fresh m hm
    · intro hl
      exact h'.fresh m hm ((h.loaded m.id).2 (Or.inl hl))
  loaded := by
    intro n
    rw [h'.loaded, h.loaded, List.map_append, List.mem_append, or_assoc]
  dicts := by
    rw [List.flatMap_append, runAll_append, h.dicts]
    exact h'.dicts
  closed := by
    intro m hm i hi
    rcases List.mem_append.1 hm with hm | hm
    · exact (h'.loaded i).2 (Or.inl (h.closed m hm i hi))
    · exact h'.closed m hm i hi

theorem foldOpt_trace (ms : List Module) (f : Ident → State → Option State)
    (hf : ∀ n s s', f n s = some s' → (∃ new, Trace ms s s' new) ∧ n ∈ s'.loaded) :
    ∀ (ns : List Ident) (s s' : State), foldOpt f ns s = some s' →
      (∃ new, Trace ms s s' new) ∧ ∀ n ∈ ns, n ∈ s'.loaded
  | [], s, s', h => by
    simp only [foldOpt, Option.some.injEq] at h
    subst h
    exact ⟨⟨[], Trace.nil ms s⟩, by simp⟩
  | n :: ns, s, s', h => by
    simp only [foldOpt] at h
    cases h1 : f n s with
    | none => simp [h1] at h
    | some s1 =>
      simp only [h1] at h
      obtain ⟨⟨a, ha⟩, hn⟩ := hf n s s1 h1
      obtain ⟨⟨b, hb⟩, hns⟩ := foldOpt_trace ms f hf ns s1 s' h
      refine ⟨⟨a ++ b, ha.append hb⟩, ?_⟩
      intro x hx
      rcases List.mem_cons.1 hx with hx | hx
      · subst hx
        exact (hb.loaded x).2 (Or.inl hn)
      · exact hns x hx

theorem load_trace (ms : List Module) (fuel : Nat) : ∀ (n : Ident) (s s' : State), load ms fuel n s = some s' →
    (∃ new, Trace ms s s' new) ∧ n ∈ s'.loaded := by
  induction fuel with
  | zero =>
    intro n s s' h
    unfold load at h
    by_cases hl : n ∈ s.loaded
    · simp only [hl, if_true, Option.some.injEq] at h
      subst h
      exact ⟨⟨[], Trace.nil ms s⟩, hl⟩
    · simp only [hl, if_false] at h
      split at h <;> simp at h
  | succ fuel ih =>
    intro n s s' h
    unfold load at h
    by_cases hl : n ∈ s.loaded
    · simp only [hl, if_true, Option.some.injEq] at h
      subst h
      exact ⟨⟨[], Trace.nil ms s⟩, hl⟩
    · simp only [hl, if_false] at h
      cases hm : ms.find? (fun m => m.id = n) with
      | none => simp [hm] at h
      | some m =>
        simp only [hm] at h
        have hid : m.id = n := by simpa using List.find?_some hm
        cases hi : foldOpt (load ms fuel) m.imports ⟨n :: s.loaded, s.dicts⟩ with
        | none => simp [hi] at h
        | some s1 =>
          simp only [hi] at h
          cases hr : runAll m.effects s1.dicts with
          | none => simp [hr] at h
          | some ds =>
            simp only [hr, Option.some.injEq] at h
            subst h
            obtain ⟨⟨a, ha⟩, hil⟩ := foldOpt_trace ms _ ih m.imports _ _ hi
            have hna : n ∉ a.map Module.id := by
              intro hn
              obtain ⟨x, hx, hxn⟩ := List.mem_map.1 hn
              have := ha.fresh x hx
              rw [hxn] at this
              exact this (by simp)
            refine ⟨⟨a ++ [m], ?_⟩, (ha.loaded n).2 (Or.inl (by simp))⟩
            refine ⟨?_, ?_, ?_, ?_, ?_, ?_⟩
            · intro x hx
              rcases List.mem_append.1 hx with hx | hx
              · exact ha.found x hx
              · simp only [List.mem_singleton] at hx
                rw [hx, hid]; exact hm
            · rw [List.map_append]
              refine List.nodup_append.2 ⟨ha.nodup, by simp, ?_⟩
              intro x hx y hy hxy
              simp only [List.map_cons, List.map_nil, List.mem_singleton] at hy
              rw [hxy, hy, hid] at hx
              exact hna hx
            · intro x hx
              rcases List.mem_append.1 hx with hx | hx
              · intro hxl
                exact ha.fresh x hx (List.mem_cons_of_mem _ hxl)
              · simp only [List.mem_singleton] at hx
                rw [hx, hid]; exact hl
            · intro x
              have := ha.loaded x
              simp only [List.mem_cons] at this
              simp only [List.map_append, List.map_cons, List.map_nil, List.mem_append, List.mem_singleton, this, hid]
              constructor
              · rintro ((h | h) | h)
                · exact Or.inr (Or.inr h)
                · exact Or.inl h
                · exact Or.inr (Or.inl h)
              · rintro (h | h | h)
                · exact Or.inl (Or.inr h)
                · exact Or.inr h
                · exact Or.inl (Or.inl h)
            · rw [List.flatMap_append, runAll_append, ha.dicts]
              simpa using hr
            · intro x hx i hxi
              rcases List.mem_append.1 hx with hx | hx
              · exact ha.closed x hx i hxi
              · simp only [List.mem_singleton] at hx
                rw [hx] at hxi
                exact hil i hxi

theorem importAll_trace (ms : List Module) (fuel : Nat) (ns : List Ident) (s s' : State)
    (h : importAll ms fuel ns s = some s') : ∃ new, Trace ms s s' new :=
  (foldOpt_trace ms _ (load_trace ms fuel) ns s s' h).1

/-! ## Which modules get loaded -/

/-- Module `b` is imported by `a`, directly or through other modules. -/
inductive Reach (ms : List Module) : Ident → Ident → Prop
  | refl (a : Ident) : Reach ms a a
  | step (m : Module) (i b : Ident) : m ∈ ms → i ∈ m.imports → Reach ms i b → Reach ms m.id b

theorem foldOpt_reach (ms : List Module) (f : Ident → State → Option State)
    (hf : ∀ n s s', f n s = some s' → ∀ x ∈ s'.loaded, x ∈ s.loaded ∨ Reach ms n x) :
    ∀ (ns : List Ident) (s s' : State), foldOpt f ns s = some s' →
      ∀ x ∈ s'.loaded, x ∈ s.loaded ∨ ∃ n ∈ ns, Reach ms n x
  | [], s, s', h, x, hx => by
    simp only [foldOpt, Option.some.injEq] at h
    subst h
    exact Or.inl hx
  | n :: ns, s, s', h, x, hx => by
    simp only [foldOpt] at h
    cases h1 : f n s with
    | none => simp [h1] at h
    | some s1 =>
      simp only [h1] at h
      rcases foldOpt_reach ms f hf ns s1 s' h x hx with h2 | ⟨i, hi, h2⟩
      · rcases hf n s s1 h1 x h2 with h3 | h3
        · exact Or.inl h3
        · exact Or.inr ⟨n, by simp, h3⟩
      · exact Or.inr ⟨i, by simp [hi], h2⟩

theorem load_reach (ms : List Module) (fuel : Nat) : ∀ (n : Ident) (s s' : State), load ms fuel n s = some s' →
    ∀ x ∈ s'.loaded, x ∈ s.loaded ∨ Reach ms n x := by
  induction fuel with
  | zero =>
    intro n s s' h
    unfold load at h
    by_cases hl : n ∈ s.loaded
    · simp only [hl, if_true, Option.some.injEq] at h
      subst h
      exact fun x hx => Or.inl hx
    · simp only [hl, if_false] at h
      split at h <;> simp at h
  | succ fuel ih =>
    intro n s s' h
    unfold load at h
    by_cases hl : n ∈ s.loaded
    · simp only [hl, if_true, Option.some.injEq] at h
      subst h
      exact fun x hx => Or.inl hx
    · simp only [hl, if_false] at h
      cases hm : ms.find? (fun m => m.id = n) with
      | none => simp [hm] at h
      | some m =>
        simp only [hm] at h
        have hid : m.id = n := by simpa using List.find?_some hm
        have hmem := List.mem_of_find?_eq_some hm
        cases hi : foldOpt (load ms fuel) m.imports ⟨n :: s.loaded, s.dicts⟩ with
        | none => simp [hi] at h
        | some s1 =>
          simp only [hi] at h
          cases hr : runAll m.effects s1.dicts with
          | none => simp [hr] at h
          | some ds =>
            simp only [hr, Option.some.injEq] at h
            subst h
            intro x hx
            rcases foldOpt_reach ms _ ih m.imports _ _ hi x hx with h1 | ⟨i, hi', h1⟩
            · rcases List.mem_cons.1 h1 with h1 | h1
              · rw [h1]; exact Or.inr (.refl n)
              · exact Or.inl h1
            · rw [← hid]; exact Or.inr (.step m i x hmem hi' h1)

/-- After importing `ns`, exactly the modules reachable from `ns` are loaded. -/
theorem importAll_loaded (ms : List Module) (fuel : Nat) (ns : List Ident) (s : State)
    (hid : ∀ m ∈ ms, ms.find? (fun x => x.id = m.id) = some m)
    (h : importAll ms fuel ns .start = some s) (x : Ident) : x ∈ s.loaded ↔ ∃ n ∈ ns, Reach ms n x := by
  obtain ⟨⟨new, tr⟩, hns⟩ := foldOpt_trace ms _ (load_trace ms fuel) ns _ _ h
  constructor
  · intro hx
    rcases foldOpt_reach ms _ (load_reach ms fuel) ns _ _ h x hx with h1 | h1
    · simp [State.start] at h1
    · exact h1
  · rintro ⟨n, hn, hr⟩
    have : ∀ a b, Reach ms a b → a ∈ s.loaded → b ∈ s.loaded := by
      intro a b hab
      induction hab with
      | refl _ => exact id
      | step m i b hm hi _ ih =>
        intro hl
        apply ih
        rcases (tr.loaded m.id).1 hl with h1 | h1
        · simp [State.start] at h1
        · obtain ⟨y, hy, hym⟩ := List.mem_map.1 h1
          have e1 := tr.found y hy
          rw [hym, hid m hm] at e1
          rw [Option.some.inj e1] at hi
          exact tr.closed y hy i hi
    exact this n x hr (hns n hn)

/-! ## Consequences for the contents of the dictionaries -/

/-- Every dictionary is created in one place only. -/
def CreatedOnce (ms : List Module) : Prop := (ms.flatMap Module.creates).Nodup

/-- All operations of the package that write this key of this dictionary write the same type. -/
def Agree (ms : List Module) (m : Ident) (k : Val) : Prop :=
  ∀ t t', (m, k, t) ∈ ms.flatMap Module.writes → (m, k, t') ∈ ms.flatMap Module.writes → t = t'

theorem nodup_flatMap_sub {α β : Type} (f : α → List β) : ∀ (l l' : List α), (l.flatMap f).Nodup → l'.Nodup →
    (∀ x ∈ l', x ∈ l) → (l'.flatMap f).Nodup := by
  intro l l' hl hn hs
  have inner : ∀ (l : List α), (l.flatMap f).Nodup → ∀ x ∈ l, (f x).Nodup := by
    intro l
    induction l with
    | nil => intro _ x hx; simp at hx
    | cons a l ih =>
      intro h x hx
      rw [List.flatMap_cons] at h
      have h := List.nodup_append.1 h
      rcases List.mem_cons.1 hx with hx | hx
      · rw [hx]; exact h.1
      · exact ih h.2.1 x hx
  have cross : ∀ (l : List α), (l.flatMap f).Nodup → ∀ x ∈ l, ∀ y ∈ l, x ≠ y → ∀ b, b ∈ f x → b ∉ f y := by
    intro l
    induction l with
    | nil => intro _ x hx; simp at hx
    | cons a l ih =>
      intro h x hx y hy hxy b hbx hby
      rw [List.flatMap_cons] at h
      have h := List.nodup_append.1 h
      rcases List.mem_cons.1 hx with hx | hx <;> rcases List.mem_cons.1 hy with hy | hy
      · exact hxy (by rw [hx, hy])
      · rw [hx] at hbx
        exact h.2.2 b hbx b (List.mem_flatMap.2 ⟨y, hy, hby⟩) rfl
      · rw [hy] at hby
        exact h.2.2 b hby b (List.mem_flatMap.2 ⟨x, hx, hbx⟩) rfl
      · exact ih h.2.1 x hx y hy hxy b hbx hby
  induction l' with
  | nil => simp
  | cons a l' ih =>
    rw [List.flatMap_cons]
    have hn' := List.nodup_cons.1 hn
    refine List.nodup_append.2 ⟨inner l hl a (hs a (by simp)), ih hn'.2 (fun x hx => hs x (by simp [hx])), ?_⟩
    intro x hx y hy hxy
    subst hxy
    obtain ⟨c, hc, hxc⟩ := List.mem_flatMap.1 hy
    have hac : a ≠ c := by intro h; subst h; exact hn'.1 hc
    exact cross l hl a (hs a (by simp)) c (hs c (by simp [hc])) hac x hx hxc

theorem Trace.mem {ms : List Module} {s s' : State} {new : List Module} (h : Trace ms s s' new) :
    ∀ m ∈ new, m ∈ ms := fun m hm => List.mem_of_find?_eq_some (h.found m hm)

theorem Trace.nodup_creates {ms : List Module} (hc : CreatedOnce ms) {s s' : State} {new : List Module}
    (h : Trace ms s s' new) : ((new.flatMap Module.effects).flatMap Effect.creates).Nodup := by
  have hnew : new.Nodup := by
    exact (List.pairwise_map.1 h.nodup).imp (fun hab e => hab (by rw [e]))
  have := nodup_flatMap_sub Module.creates ms new hc hnew h.mem
  rwa [List.flatMap_assoc]

theorem writes_flat (new : List Module) :
    (new.flatMap Module.effects).flatMap Effect.writes = new.flatMap Module.writes := by
  rw [List.flatMap_assoc]; rfl

/-- States reached from the start: what a dictionary holds was written by a loaded module, and
whatever a loaded module wrote is held. -/
theorem reach_facts {ms : List Module} (hc : CreatedOnce ms) {s : State} {new : List Module}
    (h : Trace ms State.start s new) :
    (∀ m k t, s.get m k = some t → (m, k, t) ∈ new.flatMap Module.writes) ∧
    (∀ m k t, (m, k, t) ∈ new.flatMap Module.writes → s.get m k ≠ none) := by
  obtain ⟨a1, a2, _⟩ := runAll_facts _ _ _ h.dicts (h.nodup_creates hc) (fun _ _ => rfl)
  rw [writes_flat] at a1 a2
  refine ⟨?_, a2⟩
  intro m k t hl
  rcases a1 m k t hl with h | h
  · exact h
  · simp [look, State.start] at h

/-- Order independence, for one key. -/
theorem order_independent {ms : List Module} (hc : CreatedOnce ms) (fuel fuel' : Nat) (ns ns' : List Ident)
    (s s' : State) (h : importAll ms fuel ns .start = some s) (h' : importAll ms fuel' ns' .start = some s')
    (hl : ∀ n, n ∈ s.loaded ↔ n ∈ s'.loaded) (m : Ident) (k : Val) (ha : Agree ms m k) : s.get m k = s'.get m k := by
  obtain ⟨a, ta⟩ := importAll_trace ms fuel ns _ _ h
  obtain ⟨b, tb⟩ := importAll_trace ms fuel' ns' _ _ h'
  have hsub : ∀ {s s' : State} {a b : List Module}, Trace ms .start s a → Trace ms .start s' b →
      (∀ n, n ∈ s.loaded → n ∈ s'.loaded) → ∀ x ∈ a, x ∈ b := by
    intro s s' a b ta tb hl x hx
    have h1 := hl x.id ((ta.loaded x.id).2 (Or.inr (List.mem_map.2 ⟨x, hx, rfl⟩)))
    rcases (tb.loaded x.id).1 h1 with h1 | h1
    · simp [State.start] at h1
    · obtain ⟨y, hy, hyx⟩ := List.mem_map.1 h1
      have e1 := ta.found x hx
      have e2 := tb.found y hy
      rw [hyx, e1] at e2
      rw [Option.some.inj e2]; exact hy
  have hab := hsub ta tb (fun n => (hl n).1)
  have hba := hsub tb ta (fun n => (hl n).2)
  obtain ⟨a1, a2⟩ := reach_facts hc ta
  obtain ⟨b1, b2⟩ := reach_facts hc tb
  have up : ∀ {a : List Module}, (∀ x ∈ a, x ∈ ms) → ∀ w, w ∈ a.flatMap Module.writes → w ∈ ms.flatMap Module.writes := by
    intro a hm w hw
    obtain ⟨x, hx, hw⟩ := List.mem_flatMap.1 hw
    exact List.mem_flatMap.2 ⟨x, hm x hx, hw⟩
  have mono : ∀ {a b : List Module}, (∀ x ∈ a, x ∈ b) → ∀ w, w ∈ a.flatMap Module.writes → w ∈ b.flatMap Module.writes := by
    intro a b hm w hw
    obtain ⟨x, hx, hw⟩ := List.mem_flatMap.1 hw
    exact List.mem_flatMap.2 ⟨x, hm x hx, hw⟩
  cases hs : s.get m k with
  | some t =>
    have hw := a1 m k t hs
    cases hs' : s'.get m k with
    | none => exact absurd hs' (b2 m k t (mono hab _ hw))
    | some t' => rw [ha t t' (up ta.mem _ hw) (up tb.mem _ (b1 m k t' hs'))]
  | none =>
    cases hs' : s'.get m k with
    | none => rfl
    | some t' => exact absurd hs (a2 m k t' (mono hba _ (b1 m k t' hs')))

/-- Entries stay, for one key. -/
theorem entry_stays {ms : List Module} (hc : CreatedOnce ms) (fuel fuel' : Nat) (ns ns' : List Ident)
    (s s' : State) (h : importAll ms fuel ns .start = some s) (h' : importAll ms fuel' ns' s = some s')
    (m : Ident) (k : Val) (t : Ty) (ha : Agree ms m k) (hg : s.get m k = some t) : s'.get m k = some t := by
  obtain ⟨a, ta⟩ := importAll_trace ms fuel ns _ _ h
  obtain ⟨b, tb⟩ := importAll_trace ms fuel' ns' _ _ h'
  have tab := ta.append tb
  obtain ⟨a1, _⟩ := reach_facts hc ta
  obtain ⟨c1, c2⟩ := reach_facts hc tab
  have up : ∀ {a : List Module}, (∀ x ∈ a, x ∈ ms) → ∀ w, w ∈ a.flatMap Module.writes → w ∈ ms.flatMap Module.writes := by
    intro a hm w hw
    obtain ⟨x, hx, hw⟩ := List.mem_flatMap.1 hw
    exact List.mem_flatMap.2 ⟨x, hm x hx, hw⟩
  have hw := a1 m k t hg
  have hw' : (m, k, t) ∈ (a ++ b).flatMap Module.writes := by
    rw [List.flatMap_append]; exact List.mem_append_left _ hw
  cases hs' : s'.get m k with
  | none => exact absurd hs' (c2 m k t hw')
  | some t' => rw [ha t t' (up ta.mem _ hw) (up tab.mem _ (c1 m k t' hs'))]

/-! ## Importing never fails -/

/-- Operations whose dictionaries exist when they run, given those that exist before. -/
def Targets (have_ : Ident → Prop) : List Effect → Prop
  | [] => True
  | .create m _ :: es => Targets (fun x => x = m ∨ have_ x) es
  | .update m _ :: es => have_ m ∧ Targets have_ es
  | .alias _ t :: es => have_ t ∧ Targets have_ es

/-- Every module imports only modules of the package with a smaller number, and works only on
dictionaries it created or that were created by a module it imports. -/
structure Sane (ms : List Module) : Prop where
  ids : ∀ m ∈ ms, ms.find? (fun x => x.id = m.id) = some m
  imports : ∀ m ∈ ms, ∀ n ∈ m.imports, n.idx < m.id.idx ∧ ∃ x ∈ ms, x.id = n
  targets : ∀ m ∈ ms, Targets (fun d => ∃ x ∈ ms, x.id ∈ m.imports ∧ d ∈ x.creates) m.effects

theorem runAll_ok : ∀ (es : List Effect) (ds : Dicts) (hv : Ident → Prop), Targets hv es → (∀ m, hv m → ds m ≠ none) →
    ∃ ds', runAll es ds = some ds'
  | [], ds, _, _, _ => ⟨ds, rfl⟩
  | .create m e :: es, ds, hv, h, hd => by
    simp only [Targets] at h
    simp only [runAll, Effect.run]
    refine runAll_ok es _ _ h ?_
    intro x hx
    by_cases hxm : x = m
    · simp [hxm]
    · simp only [hxm, if_false]
      exact hd x (hx.resolve_left hxm)
  | .update m e :: es, ds, hv, h, hd => by
    simp only [Targets] at h
    cases hm : ds m with
    | none => exact absurd hm (hd m h.1)
    | some d =>
      simp only [runAll, Effect.run, hm]
      refine runAll_ok es _ _ h.2 ?_
      intro x hx
      by_cases hxm : x = m
      · simp [hxm]
      · simp only [hxm, if_false]
        exact hd x hx
  | .alias a t :: es, ds, hv, h, hd => by
    simp only [Targets] at h
    cases hm : ds t with
    | none => exact absurd hm (hd t h.1)
    | some d =>
      simp only [runAll, Effect.run, hm]
      exact runAll_ok es _ _ h.2 hd

/-- No dictionary disappears, whatever runs; and what is created exists. -/
theorem runAll_keep : ∀ (es : List Effect) (ds ds' : Dicts), runAll es ds = some ds' →
    (∀ m, ds m ≠ none → ds' m ≠ none) ∧ ∀ m ∈ es.flatMap Effect.creates, ds' m ≠ none
  | [], ds, ds', h => by
    simp only [runAll, Option.some.injEq] at h
    subst h
    exact ⟨fun _ h => h, fun _ h => by simp at h⟩
  | e :: es, ds, ds', h => by
    simp only [runAll] at h
    cases h1 : e.run ds with
    | none => simp [h1] at h
    | some ds1 =>
      simp only [h1] at h
      obtain ⟨b1, b2⟩ := runAll_keep es ds1 ds' h
      have a1 : (∀ m, ds m ≠ none → ds1 m ≠ none) ∧ ∀ m ∈ e.creates, ds1 m ≠ none := by
        cases e with
        | create c es =>
          simp only [Effect.run, Option.some.injEq] at h1
          subst h1
          constructor
          · intro m hm
            by_cases hc : m = c <;> simp [hc]
            exact hm
          · intro m hm
            simp only [Effect.creates, List.mem_singleton] at hm
            simp [hm]
        | update c es =>
          simp only [Effect.run] at h1
          cases hc : ds c with
          | none => simp [hc] at h1
          | some d =>
            simp only [hc, Option.some.injEq] at h1
            subst h1
            constructor
            · intro m hm
              by_cases hc : m = c <;> simp [hc]
              exact hm
            · intro m hm
              simp [Effect.creates] at hm
        | «alias» c t =>
          simp only [Effect.run] at h1
          cases hc : ds t with
          | none => simp [hc] at h1
          | some d =>
            simp only [hc, Option.some.injEq] at h1
            subst h1
            exact ⟨fun _ h => h, fun _ h => by simp [Effect.creates] at h⟩
      refine ⟨fun m hm => b1 m (a1.1 m hm), ?_⟩
      intro m hm
      rw [List.flatMap_cons] at hm
      rcases List.mem_append.1 hm with hm | hm
      · exact b1 m (a1.2 m hm)
      · exact b2 m hm

/-- All loaded modules with a number below `r` have run to completion. -/
def Done (ms : List Module) (r : Nat) (s : State) : Prop :=
  ∀ m ∈ ms, m.id ∈ s.loaded → m.id.idx < r → ∀ d ∈ m.creates, s.dicts d ≠ none

/-- What a successful import guarantees. -/
structure Good (ms : List Module) (r : Nat) (s s' : State) : Prop where
  done : Done ms r s'
  keep : ∀ m, s.dicts m ≠ none → s'.dicts m ≠ none
  sub : ∀ n, n ∈ s.loaded → n ∈ s'.loaded
  small : ∀ n ∈ s'.loaded, n ∈ s.loaded ∨ n.idx < r

theorem foldOpt_ok (ms : List Module) (r : Nat) (f : Ident → State → Option State)
    (hf : ∀ n s, n.idx < r → (∃ x ∈ ms, x.id = n) → Done ms r s → ∃ s', f n s = some s' ∧ n ∈ s'.loaded ∧ Good ms r s s') :
    ∀ (ns : List Ident) (s : State), (∀ n ∈ ns, n.idx < r ∧ ∃ x ∈ ms, x.id = n) → Done ms r s →
      ∃ s', foldOpt f ns s = some s' ∧ (∀ n ∈ ns, n ∈ s'.loaded) ∧ Good ms r s s'
  | [], s, _, hd => ⟨s, rfl, by simp, ⟨hd, fun _ h => h, fun _ h => h, fun _ h => Or.inl h⟩⟩
  | n :: ns, s, hn, hd => by
    obtain ⟨s1, h1, hl1, g1⟩ := hf n s (hn n (by simp)).1 (hn n (by simp)).2 hd
    obtain ⟨s2, h2, hl2, g2⟩ := foldOpt_ok ms r f hf ns s1 (fun x hx => hn x (by simp [hx])) g1.done
    refine ⟨s2, by simp only [foldOpt, h1, h2], ?_, ?_⟩
    · intro x hx
      rcases List.mem_cons.1 hx with hx | hx
      · subst hx; exact g2.sub _ hl1
      · exact hl2 x hx
    · refine ⟨g2.done, fun m hm => g2.keep m (g1.keep m hm), fun x hx => g2.sub x (g1.sub x hx), ?_⟩
      intro x hx
      rcases g2.small x hx with h | h
      · exact g1.small x h
      · exact Or.inr h

theorem load_ok {ms : List Module} (hs : Sane ms) : ∀ (fuel : Nat) (n : Ident) (s : State) (r : Nat), n.idx < fuel →
    n.idx < r → (∃ x ∈ ms, x.id = n) → Done ms r s →
    ∃ s', load ms fuel n s = some s' ∧ n ∈ s'.loaded ∧ Good ms r s s' := by
  intro fuel
  induction fuel with
  | zero => intro n s r h; omega
  | succ fuel ih =>
    intro n s r hfu hr hx hd
    unfold load
    by_cases hl : n ∈ s.loaded
    · simp only [hl, if_true]
      exact ⟨s, rfl, hl, hd, fun _ h => h, fun _ h => h, fun _ h => Or.inl h⟩
    · simp only [hl, if_false]
      obtain ⟨m, hm, hid⟩ := hx
      have hfind := hs.ids m hm
      rw [hid] at hfind
      simp only [hfind]
      have hd1 : Done ms n.idx ⟨n :: s.loaded, s.dicts⟩ := by
        intro x hx hxl hxr d hdx
        rcases List.mem_cons.1 hxl with h | h
        · rw [h] at hxr; omega
        · exact hd x hx h (by omega) d hdx
      obtain ⟨s1, h1, hl1, g1⟩ := foldOpt_ok ms n.idx (load ms fuel)
        (fun k s hk hx hd => ih k s n.idx (by omega) hk hx hd) m.imports _
        (fun k hk => by
          have := hs.imports m hm k hk
          rw [hid] at this
          exact this) hd1
      simp only [h1]
      have htar : ∀ d, (∃ x ∈ ms, x.id ∈ m.imports ∧ d ∈ x.creates) → s1.dicts d ≠ none := by
        rintro d ⟨x, hx, hxi, hdx⟩
        have := (hs.imports m hm x.id hxi).1
        rw [hid] at this
        exact g1.done x hx (hl1 x.id hxi) this d hdx
      obtain ⟨ds, h2⟩ := runAll_ok m.effects s1.dicts _ (hs.targets m hm) htar
      obtain ⟨k1, k2⟩ := runAll_keep m.effects s1.dicts ds h2
      simp only [h2]
      refine ⟨_, rfl, g1.sub n (by simp), ?_⟩
      refine ⟨?_, ?_, ?_, ?_⟩
      · intro x hx hxl hxr d hdx
        rcases g1.small x.id hxl with h | h
        · rcases List.mem_cons.1 h with h | h
          · have : x = m := by
              have e := hs.ids x hx
              rw [h, hfind] at e
              exact (Option.some.inj e).symm
            rw [this] at hdx
            exact k2 d hdx
          · exact k1 d (g1.keep d (hd x hx h hxr d hdx))
        · exact k1 d (g1.done x hx hxl h d hdx)
      · exact fun d hdd => k1 d (g1.keep d hdd)
      · exact fun x hx => g1.sub x (by simp [hx])
      · intro x hx
        rcases g1.small x hx with h | h
        · rcases List.mem_cons.1 h with h | h
          · rw [h]; exact Or.inr hr
          · exact Or.inl h
        · exact Or.inr (by omega)

theorem importAll_ok {ms : List Module} (hs : Sane ms) (r : Nat) (hr : ∀ m ∈ ms, m.id.idx < r) (ns : List Ident)
    (hn : ∀ n ∈ ns, ∃ x ∈ ms, x.id = n) :
    ∃ s, importAll ms r ns .start = some s ∧ ∀ n ∈ ns, n ∈ s.loaded := by
  have hd : Done ms r .start := by
    intro m _ h
    simp [State.start] at h
  obtain ⟨s, h1, h2, _⟩ := foldOpt_ok ms r (load ms r) (fun n s hn hx hd => load_ok hs r n s r hn hn hx hd) ns .start
    (fun n hn' => by
      obtain ⟨x, hx, hxn⟩ := hn n hn'
      exact ⟨by rw [← hxn]; exact hr x hx, x, hx, hxn⟩) hd
  exact ⟨s, h1, h2⟩

end Py
end Verif
