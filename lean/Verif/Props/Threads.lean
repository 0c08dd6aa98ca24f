import Verif.Py.Threads
import Verif.Props.Registry

/-!
# C61: importing from several threads
-/

namespace Verif
namespace Props
namespace Threads

open Asn1 Py Registry

/-- Programs that import modules of the package. -/
def Ours (ps : List (List Py.Ident)) : Prop := ∀ p ∈ ps, ∀ n ∈ p, ∃ m ∈ Package.modules, m.id = n

/-- Some schedule of threads that import `ps` leads to `w`. -/
def Reachable (ps : List (List Py.Ident)) (w : World) : Prop := Steps Package.modules (.start ps) w

/-- All threads have come to their end. -/
def Finished (w : World) : Prop := ∀ i, step Package.modules w i = .finished

theorem inv {ps : List (List Py.Ident)} (hp : Ours ps) {w : World} (h : Reachable ps w) : Inv Package.modules ps w :=
  steps_inv sane created_once hp (inv_start _ ps) h

/-- C61: whatever the schedule, nothing raises. -/
theorem never_raises {ps : List (List Py.Ident)} (hp : Ours ps) {w : World} (h : Reachable ps w) (i : Nat) :
    step Package.modules w i ≠ .raised := step_ok sane hp (inv hp h) i

/-- C61: there is no deadlock. -/
theorem no_deadlock {ps : List (List Py.Ident)} (hp : Ours ps) {w : World} (h : Reachable ps w) (hf : ¬ Finished w) :
    ∃ i w', step Package.modules w i = .next w' := by
  simp only [Finished, Classical.not_forall] at hf
  obtain ⟨i, hi⟩ := hf
  exact progress sane hp (inv hp h) i hi

/-- C61: no schedule goes on forever. -/
theorem ends (f : Nat → World) : ¬ ∀ k, ∃ i, step Package.modules (f k) i = .next (f (k + 1)) := by
  intro h
  have hd : ∀ k, (f k).weight Package.modules + k ≤ (f 0).weight Package.modules := by
    intro k
    induction k with
    | zero => simp
    | succ k ih =>
      obtain ⟨i, hi⟩ := h k
      have := step_weight hi
      omega
  have := hd ((f 0).weight Package.modules + 1)
  omega

/-- C61: from wherever the schedule has led, all threads can come to their end. -/
theorem can_finish {ps : List (List Py.Ident)} (hp : Ours ps) {w : World} (h : Reachable ps w) :
    ∃ w', Steps Package.modules w w' ∧ Reachable ps w' ∧ Finished w' := by
  suffices ∀ (n : Nat) (w' : World), Steps Package.modules w w' → Reachable ps w' → w'.weight Package.modules ≤ n →
      ∃ w', Steps Package.modules w w' ∧ Reachable ps w' ∧ Finished w' from this _ w (.nil w) h (Nat.le_refl _)
  intro n
  induction n with
  | zero =>
    intro w' h1 h2 hn
    refine ⟨w', h1, h2, ?_⟩
    apply Classical.byContradiction
    intro hf
    obtain ⟨i, w'', hi⟩ := no_deadlock hp h2 hf
    have := step_weight hi
    omega
  | succ n ih =>
    intro w' h1 h2 hn
    by_cases hf : Finished w'
    · exact ⟨w', h1, h2, hf⟩
    · obtain ⟨i, w'', hi⟩ := no_deadlock hp h2 hf
      have := step_weight hi
      exact ih w'' (.snoc i h1 hi) (.snoc i h2 hi) (by omega)

/-- Thread `i` has imported `n` and is not importing anything else at the moment. -/
def Imported (ps : List (List Py.Ident)) (w : World) (i : Nat) (n : Py.Ident) : Prop :=
  ∃ p q th, ps[i]? = some p ∧ w.threads[i]? = some th ∧ th.stack = [] ∧ p = q ++ th.program ∧ n ∈ q

theorem done_reach {ps : List (List Py.Ident)} {w : World} (h : Inv Package.modules ps w) {n x : Py.Ident}
    (hr : Reach Package.modules n x) (hn : n ∈ w.done) : x ∈ w.done := by
  induction hr with
  | refl => exact hn
  | step m j b hm hj _ ih => exact ih ((h.doneOk m hm hn).1 j hj)

theorem imported_done {ps : List (List Py.Ident)} {w : World} (h : Inv Package.modules ps w) {i : Nat} {n : Py.Ident}
    (hn : Imported ps w i n) : n ∈ w.done := by
  obtain ⟨p, q, th, h1, h2, h3, h4, h5⟩ := hn
  obtain ⟨q', h6, h7⟩ := h.programs i th p h2 h1
  have : q = q' := List.append_cancel_right (h4.symm.trans h6)
  subst this
  rcases h7 n h5 with h8 | h8
  · exact h8
  · simp [Thread.mods, h3] at h8

theorem get_agree {ps : List (List Py.Ident)} {w : World} (h : Inv Package.modules ps w) {m : Py.Ident} {k : Val}
    (hk : (m, k) ∉ contested) {x : Module} (hx : x ∈ Package.modules) {t t' : Ty} (hw : (m, k, t) ∈ x.writes) (hg : w.get m k = some t') :
    t' = t := by
  obtain ⟨y, hy, _, hyw⟩ := h.sound m k t' hg
  exact agree m k hk t' t (List.mem_flatMap.2 ⟨y, hy, hyw⟩) (List.mem_flatMap.2 ⟨x, hx, hw⟩)

/-- C61: once a thread has imported a module it finds everything in place that the module, and the modules it imports, register,
whatever other threads are doing. -/
theorem visible {ps : List (List Py.Ident)} (hp : Ours ps) {w : World} (h : Reachable ps w) {i : Nat} {n : Py.Ident}
    (hn : Imported ps w i n) (x : Module) (hx : x ∈ Package.modules) (hr : Reach Package.modules n x.id) (m : Py.Ident) (k : Val) (t : Ty)
    (hw : (m, k, t) ∈ x.writes) : w.get m k ≠ none ∧ ((m, k) ∉ contested → w.get m k = some t) := by
  have hi := inv hp h
  have hd := done_reach hi hr (imported_done hi hn)
  have h1 := (hi.doneOk x hx hd).2.1 m k t hw
  refine ⟨h1, fun hk => ?_⟩
  obtain ⟨t', ht'⟩ := Option.ne_none_iff_exists'.1 h1
  have ht'' : w.get m k = some t' := ht'
  rw [ht'', get_agree hi hk hx hw ht'']

/-- C61: at no time does a registry hold anything but what a module in question registers there. -/
theorem only_registered {ps : List (List Py.Ident)} (hp : Ours ps) {w : World} (h : Reachable ps w) (m : Py.Ident) (k : Val) (t : Ty)
    (hg : w.get m k = some t) : ∃ x ∈ Package.modules, (∃ p ∈ ps, ∃ n ∈ p, Reach Package.modules n x.id) ∧ (m, k, t) ∈ x.writes := by
  obtain ⟨x, hx, hb, hw⟩ := (inv hp h).sound m k t hg
  exact ⟨x, hx, (inv hp h).reach _ hb, hw⟩

theorem step_keys {ps : List (List Py.Ident)} {w w' : World} (h : Inv Package.modules ps w) {i : Nat}
    (hw : step Package.modules w i = .next w') (m : Py.Ident) (k : Val) (hg : w.get m k ≠ none) : w'.get m k ≠ none := by
  unfold step at hw
  split at hw
  · simp at hw
  · rename_i th ht
    obtain ⟨pr, st⟩ := th
    have himp : ∀ {mods n th}, importStep Package.modules w i mods n th = .next w' → w'.dicts = w.dicts := by
      intro mods n th hi
      unfold importStep at hi
      split at hi
      · simp only [Outcome.next.injEq] at hi; rw [← hi]
      · split at hi
        · simp only [Outcome.next.injEq] at hi; rw [← hi]
        · split at hi
          · simp at hi
          · split at hi
            · simp at hi
            · simp only [Outcome.next.injEq] at hi; rw [← hi]
    cases st with
    | nil =>
      cases pr with
      | nil => simp at hw
      | cons n ns => simpa only [World.get, himp hw] using hg
    | cons f fs =>
      obtain ⟨x, im, ef⟩ := f
      cases im with
      | cons n ns => simpa only [World.get, himp hw] using hg
      | nil =>
        cases ef with
        | nil =>
          simp only [Outcome.next.injEq] at hw
          subst hw
          exact hg
        | cons e es =>
          simp only at hw
          split at hw
          · simp at hw
          · rename_i ds hr
            simp only [Outcome.next.injEq] at hw
            subst hw
            obtain ⟨⟨y, hy⟩, _⟩ := h.stacks i _ ht
            obtain ⟨_, _, f3, _⟩ := run_facts e w.dicts ds hr (fun d hd => hy.pending d (by simp [hd]))
            exact f3 m k hg

/-- C61: a key that is bound stays bound, and keeps its type unless it is contested. -/
theorem entries_stay {ps : List (List Py.Ident)} (hp : Ours ps) {w w' : World} (h : Reachable ps w) (hw : Steps Package.modules w w')
    (m : Py.Ident) (k : Val) (t : Ty) (hg : w.get m k = some t) :
    w'.get m k ≠ none ∧ ((m, k) ∉ contested → w'.get m k = some t) := by
  suffices w'.get m k ≠ none ∧ Reachable ps w' by
    refine ⟨this.1, fun hk => ?_⟩
    obtain ⟨t', ht'⟩ := Option.ne_none_iff_exists'.1 this.1
    obtain ⟨x, hx, _, hxw⟩ := (inv hp h).sound m k t hg
    rw [ht', get_agree (inv hp this.2) hk hx hxw ht']
  induction hw with
  | nil => exact ⟨by simp [hg], h⟩
  | snoc i _ hs ih => exact ⟨step_keys (inv hp ih.2) hs m k ih.1, .snoc i ih.2 hs⟩

theorem finished_done {ps : List (List Py.Ident)} {w : World} (h : Inv Package.modules ps w) (hf : Finished w) (n : Py.Ident) :
    n ∈ w.done ↔ ∃ p ∈ ps, ∃ r ∈ p, Reach Package.modules r n := by
  have hst : ∀ (i : Nat) (th : Thread), w.threads[i]? = some th → th.stack = [] ∧ th.program = [] := by
    intro i th ht
    have h1 := hf i
    obtain ⟨pr, st⟩ := th
    cases st with
    | cons f fs => exact absurd h1 (not_finished ht (n := f.mod) (by simp [Thread.mods]))
    | nil =>
      cases pr with
      | nil => exact ⟨rfl, rfl⟩
      | cons n ns =>
        simp only [step, ht, importStep] at h1
        split at h1
        · simp at h1
        · split at h1
          · simp at h1
          · split at h1
            · simp at h1
            · split at h1 <;> simp at h1
  constructor
  · exact fun hn => h.reach n (h.doneBegun n hn)
  · rintro ⟨p, hp, r, hr, hre⟩
    refine done_reach h hre ?_
    obtain ⟨i, hi, rfl⟩ := List.getElem_of_mem hp
    have hi' : i < w.threads.length := by rw [h.size]; exact hi
    have ht : w.threads[i]? = some w.threads[i] := List.getElem?_eq_getElem hi'
    obtain ⟨h1, h2⟩ := hst i _ ht
    exact imported_done h (i := i) ⟨ps[i], ps[i], w.threads[i], List.getElem?_eq_getElem hi, ht, h1, by simp [h2], hr⟩

/-- C61: when all threads have come to their end, the registries hold what a program without threads finds that imports the same
modules in any order. -/
theorem same_result {ps : List (List Py.Ident)} (hp : Ours ps) {w : World} (h : Reachable ps w) (hf : Finished w)
    (fuel : Nat) (ns : List Py.Ident) (s : State) (hs : importAll Package.modules fuel ns .start = some s)
    (hn : ∀ n, n ∈ ns ↔ ∃ p ∈ ps, n ∈ p) (m : Py.Ident) (k : Val) (hk : (m, k) ∉ contested) : w.get m k = s.get m k := by
  have hi := inv hp h
  have hload : ∀ x, x ∈ s.loaded ↔ x ∈ w.done := by
    intro x
    rw [importAll_loaded _ _ _ _ ids_ok hs, finished_done hi hf]
    constructor
    · rintro ⟨n, h1, h2⟩
      obtain ⟨p, h3, h4⟩ := (hn n).1 h1
      exact ⟨p, h3, n, h4, h2⟩
    · rintro ⟨p, h3, n, h4, h2⟩
      exact ⟨n, (hn n).2 ⟨p, h3, h4⟩, h2⟩
  cases hg : s.get m k with
  | some t =>
    obtain ⟨x, hx, hl, hw⟩ := registered_by fuel ns s hs m k t hg
    have h1 := (hi.doneOk x hx ((hload _).1 hl)).2.1 m k t hw
    obtain ⟨t', ht'⟩ := Option.ne_none_iff_exists'.1 h1
    have ht'' : w.get m k = some t' := ht'
    rw [ht'', get_agree hi hk hx hw ht'']
  | none =>
    cases hg' : w.get m k with
    | none => rfl
    | some t =>
      obtain ⟨x, hx, hb, hw⟩ := hi.sound m k t hg'
      have hd : x.id ∈ w.done := by
        rcases hi.cover _ hb with hd | ⟨i, th, ht, hm⟩
        · exact hd
        · exact absurd (hf i) (not_finished ht hm)
      exact absurd hg (registered fuel ns s hs x hx ((hload _).2 hd) m k t hw).1

/-! ## The contested keys -/

theorem runSchedule_steps (ms : List Module) : ∀ (is : List Nat) (w0 w : World), Steps ms w0 w → Steps ms w0 (runSchedule ms w is)
  | [], _, _, h => h
  | i :: is, w0, w, h => by
    simp only [runSchedule]
    split
    · rename_i w' hs
      exact runSchedule_steps ms is w0 w' (.snoc i h hs)
    · exact runSchedule_steps ms is w0 w h

/-- One thread imports rfc3770, another rfc4334. -/
def wlan : List (List Py.Ident) := [[Rfc3770.asModule.id], [Rfc4334.asModule.id]]

/-- The second thread runs while the first one is between its two updates. -/
def between : World := runSchedule Package.modules (.start wlan) (List.replicate 76 0 ++ List.replicate 7 1 ++ List.replicate 3 0)

def decodeIn (w : World) (m : Py.Ident) (k : Val) (b : Bytes) : Option Val :=
  (w.get m k).bind (fun t => (decode t b).map Prod.fst)

def isFinished : Outcome → Bool
  | .finished => true
  | _ => false

theorem isFinished_spec {o : Outcome} (h : isFinished o = true) : o = .finished := by
  cases o <;> simp [isFinished] at h ⊢

/-- For the contested keys a result is possible that no order of imports has without threads: the extension as rfc4334 has it,
the attribute as rfc3770 has it (an over-long SSID is accepted in one and refused in the other). -/
theorem torn : Reachable wlan between ∧ Finished between ∧
    decodeIn between certificateExtensionsMap (.oid [1, 3, 6, 1, 5, 5, 7, 1, 13]) longSSID ≠ none ∧
    decodeIn between certificateAttributesMap (.oid [1, 3, 6, 1, 5, 5, 7, 10, 7]) longSSID = none ∧
    ∀ ns ∈ [[Rfc3770.asModule.id, Rfc4334.asModule.id], [Rfc4334.asModule.id, Rfc3770.asModule.id]],
      (decodeUnder ns certificateExtensionsMap (.oid [1, 3, 6, 1, 5, 5, 7, 1, 13]) longSSID = none ↔
        decodeUnder ns certificateAttributesMap (.oid [1, 3, 6, 1, 5, 5, 7, 10, 7]) longSSID = none) := by
  refine ⟨runSchedule_steps _ _ _ _ (.nil _), ?_, by decide +kernel, by decide +kernel, ?_⟩
  · have h2 : between.threads.length = 2 := by decide +kernel
    intro i
    match i with
    | 0 => exact isFinished_spec (by decide +kernel)
    | 1 => exact isFinished_spec (by decide +kernel)
    | i + 2 =>
      have : between.threads[i + 2]? = none := List.getElem?_eq_none (by omega)
      simp only [step, this]
  · intro ns hns
    obtain ⟨e1, e2⟩ := wlanSSID_extension_order
    obtain ⟨a1, a2⟩ := wlanSSID_attribute_order
    simp only [List.mem_cons, List.not_mem_nil, or_false] at hns
    rcases hns with rfl | rfl
    · rw [e1, a1]
    · rw [e2, a2]

/-! ## Examples -/

namespace Examples

theorem wlan_ours : Ours wlan := by
  intro p hp n hn
  simp only [wlan, List.mem_cons, List.not_mem_nil, or_false] at hp
  rcases hp with rfl | rfl <;> simp only [List.mem_cons, List.not_mem_nil, or_false] at hn <;> subst hn
  · exact ⟨Rfc3770.asModule, by simp [Package.modules], rfl⟩
  · exact ⟨Rfc4334.asModule, by simp [Package.modules], rfl⟩

/-- The second thread waits for rfc5280, which the first is loading. -/
def waiting : World := runSchedule Package.modules (.start wlan) (List.replicate 40 0 ++ [1])

def isBlocked : Outcome → Bool
  | .blocked => true
  | _ => false

example : Reachable wlan waiting ∧ isBlocked (step Package.modules waiting 1) = true :=
  ⟨runSchedule_steps _ _ _ _ (.nil _), by decide +kernel⟩

/-- The second thread is done while the first is between its two updates. -/
def ahead : World := runSchedule Package.modules (.start wlan) (List.replicate 76 0 ++ List.replicate 7 1)

theorem ahead_threads : ahead.threads[1]?.map (fun t => (t.program, t.stack.length)) = some ([], 0) := by decide +kernel

-- `visible`
example : Reachable wlan ahead ∧ ¬ Finished ahead ∧ Imported wlan ahead 1 Rfc4334.asModule.id := by
  refine ⟨runSchedule_steps _ _ _ _ (.nil _), ?_, ?_⟩
  · intro h
    have h0 := h 0
    have : isFinished (step Package.modules ahead 0) = false := by decide +kernel
    rw [h0] at this
    simp [isFinished] at this
  · have h := ahead_threads
    rw [Option.map_eq_some_iff] at h
    obtain ⟨th, h1, h2⟩ := h
    simp only [Prod.mk.injEq, List.length_eq_zero_iff] at h2
    exact ⟨[Rfc4334.asModule.id], [Rfc4334.asModule.id], th, rfl, h1, h2.2, by simp [h2.1], by simp⟩

-- `entries_stay`, `only_registered`: a key that is bound
example : (ahead.get certificateExtensionsMap (.oid [2, 5, 29, 15])).isSome = true := by decide +kernel

end Examples

end Threads
end Props
end Verif
