import Verif.Py.Import

/-!
# Importing modules from several threads

As `Import.lean`, with any number of threads.  What CPython does (`importlib._bootstrap`, `_find_and_load`): each module has a
lock that is held while its body runs; a thread that imports a module another thread is loading waits until it is loaded; one
that imports a module it is itself loading gets it as it is.  Not modelled: the escape from a deadlock, where CPython hands out a
module that is not fully loaded (`Props/Threads.lean` shows that there is no deadlock).  Threads may be switched between any two
imports and dictionary operations, and within `update` after each entry.
-/

namespace Verif
namespace Py

open Asn1

/-- The parts of an operation that cannot be interrupted.  A new dictionary is filled before it gets its name. -/
def Effect.atoms : Effect → List Effect
  | .update m (e :: es) => (e :: es).map (fun e => .update m [e])
  | e => [e]

/-- A module that is being loaded: the imports and the operations still to be done. -/
structure Frame where
  mod : Ident
  imports : List Ident
  effects : List Effect

/-- A thread: the modules it has yet to import, and those it is loading, each because of the next one in the list. -/
structure Thread where
  program : List Ident
  stack : List Frame

def Thread.mods (th : Thread) : List Ident := th.stack.map Frame.mod

/-- The interpreter: `sys.modules`, those of them that are fully loaded, and the dictionaries. -/
structure World where
  threads : List Thread
  begun : List Ident
  done : List Ident
  dicts : Dicts

/-- Threads that are to import these modules; nothing imported yet. -/
def World.start (ps : List (List Ident)) : World := ⟨ps.map (fun p => ⟨p, []⟩), [], [], fun _ => none⟩

def World.get (w : World) (m : Ident) (k : Val) : Option Ty := look w.dicts m k

inductive Outcome where
  /-- there is no such thread, or it has nothing more to do -/
  | finished
  /-- waiting for another thread -/
  | blocked
  | raised
  | next (w : World)

/-- Thread `i`, which loads `mods`, imports `n`; `th` is the thread when this is done. -/
def importStep (ms : List Module) (w : World) (i : Nat) (mods : List Ident) (n : Ident) (th : Thread) : Outcome :=
  if n ∈ w.done then .next { w with threads := w.threads.set i th }
  else if n ∈ mods then .next { w with threads := w.threads.set i th }
  else if n ∈ w.begun then .blocked
  else
    match ms.find? (fun m => m.id = n) with
    | none => .raised
    | some m => .next { w with
        begun := n :: w.begun
        threads := w.threads.set i ⟨th.program, ⟨n, m.imports, m.effects.flatMap Effect.atoms⟩ :: th.stack⟩ }

/-- One step of thread `i`. -/
def step (ms : List Module) (w : World) (i : Nat) : Outcome :=
  match w.threads[i]? with
  | none => .finished
  | some th =>
    match th.stack with
    | [] =>
      match th.program with
      | [] => .finished
      | n :: ns => importStep ms w i [] n ⟨ns, []⟩
    | f :: fs =>
      match f.imports with
      | n :: ns => importStep ms w i (th.stack.map Frame.mod) n ⟨th.program, ⟨f.mod, ns, f.effects⟩ :: fs⟩
      | [] =>
        match f.effects with
        | e :: es =>
          match e.run w.dicts with
          | none => .raised
          | some ds => .next { w with dicts := ds, threads := w.threads.set i ⟨th.program, ⟨f.mod, [], es⟩ :: fs⟩ }
        | [] => .next { w with done := f.mod :: w.done, threads := w.threads.set i ⟨th.program, fs⟩ }

/-- From `w` to `w'` in some schedule. -/
inductive Steps (ms : List Module) : World → World → Prop
  | nil (w : World) : Steps ms w w
  | snoc {w w' w'' : World} (i : Nat) : Steps ms w w' → step ms w' i = .next w'' → Steps ms w w''

/-- A schedule, as the numbers of the threads; turns of threads that cannot run are skipped. -/
def runSchedule (ms : List Module) (w : World) : List Nat → World
  | [] => w
  | i :: is =>
    match step ms w i with
    | .next w' => runSchedule ms w' is
    | _ => runSchedule ms w is

/-! ## The parts of an operation -/

theorem atoms_writes (e : Effect) : e.atoms.flatMap Effect.writes = e.writes := by
  cases e with
  | create m es => simp [Effect.atoms]
  | alias m t => simp [Effect.atoms]
  | update m es =>
    cases es with
    | nil => simp [Effect.atoms]
    | cons e es =>
      simp only [Effect.atoms, Effect.writes]
      induction (e :: es) with
      | nil => rfl
      | cons x xs ih => simpa [Effect.writes] using ih

theorem atoms_creates (e : Effect) : e.atoms.flatMap Effect.creates = e.creates := by
  cases e with
  | create m es => simp [Effect.atoms]
  | alias m t => simp [Effect.atoms]
  | update m es =>
    cases es with
    | nil => simp [Effect.atoms]
    | cons e es =>
      simp only [Effect.atoms, Effect.creates]
      induction (e :: es) with
      | nil => rfl
      | cons x xs ih => simpa [Effect.creates] using ih

theorem flat_writes (es : List Effect) : (es.flatMap Effect.atoms).flatMap Effect.writes = es.flatMap Effect.writes := by
  rw [List.flatMap_assoc]
  simp only [atoms_writes]

theorem flat_creates (es : List Effect) : (es.flatMap Effect.atoms).flatMap Effect.creates = es.flatMap Effect.creates := by
  rw [List.flatMap_assoc]
  simp only [atoms_creates]

theorem Targets.mono : ∀ {es : List Effect} {p q : Ident → Prop}, (∀ d, p d → q d) → Targets p es → Targets q es
  | [], _, _, _, _ => trivial
  | .create _ _ :: es, _, _, h, ht => Targets.mono (es := es) (fun d hd => hd.imp id (h d)) ht
  | .update m _ :: es, _, _, h, ht => ⟨h m ht.1, Targets.mono (es := es) h ht.2⟩
  | .alias _ t :: es, _, _, h, ht => ⟨h t ht.1, Targets.mono (es := es) h ht.2⟩

theorem Targets.updates {p : Ident → Prop} {m : Ident} (hp : p m) {fs : List Effect} (hf : Targets p fs) :
    ∀ es : Entries, Targets p (es.map (fun e => Effect.update m [e]) ++ fs)
  | [] => hf
  | _ :: es => ⟨hp, Targets.updates hp hf es⟩

theorem Targets.atoms : ∀ {es : List Effect} {p : Ident → Prop}, Targets p es → Targets p (es.flatMap Effect.atoms)
  | [], _, _ => trivial
  | .create _ _ :: es, _, h => Targets.atoms (es := es) h
  | .alias _ _ :: es, _, h => ⟨h.1, Targets.atoms (es := es) h.2⟩
  | .update _ [] :: es, _, h => ⟨h.1, Targets.atoms (es := es) h.2⟩
  | .update _ (x :: xs) :: es, _, h => Targets.updates h.1 (Targets.atoms (es := es) h.2) (x :: xs)

/-! ## The invariant -/

/-- What is known about a module that is being loaded, because of which `above` is being loaded. -/
structure FrameOk (ms : List Module) (w : World) (above : Option Ident) (f : Frame) (m : Module) : Prop where
  mem : m ∈ ms
  named : m.id = f.mod
  begun : f.mod ∈ w.begun
  notDone : f.mod ∉ w.done
  sub : ∀ i ∈ f.imports, i ∈ m.imports
  processed : ∀ i ∈ m.imports, i ∈ f.imports ∨ i ∈ w.done ∨ above = some i
  above : ∀ a, above = some a → a ∈ m.imports
  targets : Targets (fun d => w.dicts d ≠ none ∨ ∃ x ∈ ms, x.id ∈ m.imports ∧ d ∈ x.creates) f.effects
  split : ∃ pre, m.effects.flatMap Effect.atoms = pre ++ f.effects ∧
    (∀ d k t, (d, k, t) ∈ pre.flatMap Effect.writes → look w.dicts d k ≠ none) ∧
    (∀ d ∈ pre.flatMap Effect.creates, w.dicts d ≠ none)
  pending : ∀ d ∈ f.effects.flatMap Effect.creates, w.dicts d = none

def StackOk (ms : List Module) (w : World) : Option Ident → List Frame → Prop
  | _, [] => True
  | a, f :: fs => (∃ m, FrameOk ms w a f m) ∧ StackOk ms w (some f.mod) fs

structure Inv (ms : List Module) (ps : List (List Ident)) (w : World) : Prop where
  stacks : ∀ (i : Nat) (th : Thread), w.threads[i]? = some th → StackOk ms w none th.stack
  disj : ∀ (i j : Nat) (ti tj : Thread), w.threads[i]? = some ti → w.threads[j]? = some tj → ∀ n ∈ ti.mods, n ∈ tj.mods → i = j
  cover : ∀ n ∈ w.begun, n ∈ w.done ∨ ∃ (i : Nat) (th : Thread), w.threads[i]? = some th ∧ n ∈ th.mods
  doneBegun : ∀ n ∈ w.done, n ∈ w.begun
  doneOk : ∀ m ∈ ms, m.id ∈ w.done → (∀ i ∈ m.imports, i ∈ w.done) ∧ (∀ d k t, (d, k, t) ∈ m.writes → look w.dicts d k ≠ none) ∧
    ∀ d ∈ m.creates, w.dicts d ≠ none
  sound : ∀ d k t, look w.dicts d k = some t → ∃ m ∈ ms, m.id ∈ w.begun ∧ (d, k, t) ∈ m.writes
  untouched : ∀ m ∈ ms, m.id ∉ w.begun → ∀ d ∈ m.creates, w.dicts d = none
  size : w.threads.length = ps.length
  programs : ∀ (i : Nat) (th : Thread) (p : List Ident), w.threads[i]? = some th → ps[i]? = some p →
    ∃ q, p = q ++ th.program ∧ ∀ n ∈ q, n ∈ w.done ∨ n ∈ th.mods
  reach : ∀ n ∈ w.begun, ∃ p ∈ ps, ∃ r ∈ p, Reach ms r n

theorem inv_start (ms : List Module) (ps : List (List Ident)) : Inv ms ps (.start ps) where
  stacks := by
    intro i th h
    simp only [World.start, List.getElem?_map, Option.map_eq_some_iff] at h
    obtain ⟨p, _, rfl⟩ := h
    trivial
  disj := by
    intro i j ti tj h _ n hn
    simp only [World.start, List.getElem?_map, Option.map_eq_some_iff] at h
    obtain ⟨p, _, rfl⟩ := h
    simp [Thread.mods] at hn
  cover := by simp [World.start]
  doneBegun := by simp [World.start]
  doneOk := by simp [World.start]
  sound := by simp [World.start, look]
  untouched := by simp [World.start]
  size := by simp [World.start]
  programs := by
    intro i th p h hp
    simp only [World.start, List.getElem?_map, Option.map_eq_some_iff] at h
    obtain ⟨p', h1, rfl⟩ := h
    obtain rfl := Option.some.inj (h1.symm.trans hp)
    exact ⟨[], by simp, by simp⟩
  reach := by simp [World.start]

theorem FrameOk.mono {ms : List Module} {w w' : World} {a : Option Ident} {f : Frame} {m : Module} (h : FrameOk ms w a f m)
    (hb : ∀ n ∈ w.begun, n ∈ w'.begun) (hd : ∀ n ∈ w.done, n ∈ w'.done) (hn : f.mod ∉ w'.done)
    (h1 : ∀ d, w.dicts d ≠ none → w'.dicts d ≠ none) (h2 : ∀ d k, look w.dicts d k ≠ none → look w'.dicts d k ≠ none)
    (h3 : ∀ d ∈ f.effects.flatMap Effect.creates, w'.dicts d = none) : FrameOk ms w' a f m where
  mem := h.mem
  named := h.named
  begun := hb _ h.begun
  notDone := hn
  sub := h.sub
  processed := fun i hi => (h.processed i hi).imp id (Or.imp (hd i) id)
  above := h.above
  targets := h.targets.mono (fun d => Or.imp (h1 d) id)
  split := by
    obtain ⟨pre, h4, h5, h6⟩ := h.split
    exact ⟨pre, h4, fun d k t hw => h2 d k (h5 d k t hw), fun d hc => h1 d (h6 d hc)⟩
  pending := h3

theorem StackOk.mono {ms : List Module} {w w' : World} (hb : ∀ n ∈ w.begun, n ∈ w'.begun) (hd : ∀ n ∈ w.done, n ∈ w'.done)
    (h1 : ∀ d, w.dicts d ≠ none → w'.dicts d ≠ none) (h2 : ∀ d k, look w.dicts d k ≠ none → look w'.dicts d k ≠ none) :
    ∀ {fs : List Frame} {a : Option Ident}, StackOk ms w a fs → (∀ f ∈ fs, f.mod ∉ w'.done) →
      (∀ f ∈ fs, ∀ m ∈ ms, m.id = f.mod → ∀ d ∈ f.effects.flatMap Effect.creates, d ∈ m.creates → w.dicts d = none → w'.dicts d = none) →
      StackOk ms w' a fs
  | [], _, _, _, _ => trivial
  | f :: fs, a, h, hn, h3 => by
    obtain ⟨⟨m, hm⟩, hs⟩ := h
    refine ⟨⟨m, hm.mono hb hd (hn f (by simp)) h1 h2 ?_⟩, StackOk.mono hb hd h1 h2 hs (fun g hg => hn g (by simp [hg]))
      (fun g hg => h3 g (by simp [hg]))⟩
    intro d hc
    refine h3 f (by simp) m hm.mem hm.named d hc ?_ (hm.pending d hc)
    obtain ⟨pre, h4, _, _⟩ := hm.split
    have : d ∈ (m.effects.flatMap Effect.atoms).flatMap Effect.creates := by
      rw [h4, List.flatMap_append]
      exact List.mem_append_right _ hc
    rwa [flat_creates] at this

/-- Every module further down the stack has a larger number. -/
theorem StackOk.below {ms : List Module} (hs : Sane ms) {w : World} : ∀ {fs : List Frame} {a : Ident}, StackOk ms w (some a) fs →
    ∀ f ∈ fs, a.idx < f.mod.idx
  | [], _, _, f, hf => by simp at hf
  | g :: fs, a, h, f, hf => by
    obtain ⟨⟨m, hm⟩, h⟩ := h
    have h1 : a.idx < g.mod.idx := by
      have := (hs.imports m hm.mem a (hm.above a rfl)).1
      rwa [hm.named] at this
    rcases List.mem_cons.1 hf with rfl | hf
    · exact h1
    · have := StackOk.below hs h f hf
      omega

theorem StackOk.frame {ms : List Module} {w : World} : ∀ {fs : List Frame} {a : Option Ident}, StackOk ms w a fs →
    ∀ f ∈ fs, ∃ b m, FrameOk ms w b f m
  | [], _, _, f, hf => by simp at hf
  | g :: fs, a, h, f, hf => by
    obtain ⟨⟨m, hm⟩, h⟩ := h
    rcases List.mem_cons.1 hf with rfl | hf
    · exact ⟨a, m, hm⟩
    · exact StackOk.frame h f hf

theorem same_module {ms : List Module} (hs : Sane ms) {m m' : Module} (h : m ∈ ms) (h' : m' ∈ ms) (he : m.id = m'.id) : m = m' := by
  have h1 := hs.ids m h
  have h2 := hs.ids m' h'
  rw [he] at h1
  exact Option.some.inj (h1.symm.trans h2)

theorem creates_disjoint : ∀ {ms : List Module}, CreatedOnce ms → ∀ {m m' : Module}, m ∈ ms → m' ∈ ms → ∀ {d : Ident},
    d ∈ m.creates → d ∈ m'.creates → m = m'
  | [], _, _, _, h, _, _, _, _ => by simp at h
  | a :: ms, hc, m, m', h, h', d, hd, hd' => by
    simp only [CreatedOnce, List.flatMap_cons, List.nodup_append] at hc
    obtain ⟨_, h2, h3⟩ := hc
    rcases List.mem_cons.1 h with rfl | h1 <;> rcases List.mem_cons.1 h' with rfl | h1'
    · rfl
    · exact absurd rfl (h3 d hd d (List.mem_flatMap.2 ⟨m', h1', hd'⟩))
    · exact absurd rfl (h3 d hd' d (List.mem_flatMap.2 ⟨m, h1, hd⟩))
    · exact creates_disjoint (ms := ms) h2 h1 h1' hd hd'

theorem creates_nodup : ∀ {ms : List Module}, CreatedOnce ms → ∀ {m : Module}, m ∈ ms → m.creates.Nodup
  | [], _, _, h => by simp at h
  | a :: ms, hc, m, h => by
    simp only [CreatedOnce, List.flatMap_cons, List.nodup_append] at hc
    rcases List.mem_cons.1 h with rfl | h
    · exact hc.1
    · exact creates_nodup (ms := ms) hc.2.1 h

theorem get_set {l : List Thread} {i j : Nat} {a t : Thread} (h : (l.set i a)[j]? = some t) :
    (j = i ∧ t = a) ∨ (j ≠ i ∧ l[j]? = some t) := by
  rw [List.getElem?_set] at h
  by_cases hij : i = j
  · subst hij
    simp only [if_true] at h
    split at h
    · exact .inl ⟨rfl, (Option.some.inj h).symm⟩
    · simp at h
  · rw [if_neg hij] at h
    exact .inr ⟨fun e => hij e.symm, h⟩

theorem set_self {l : List Thread} {i : Nat} {t : Thread} (h : l[i]? = some t) (a : Thread) : (l.set i a)[i]? = some a := by
  have : i < l.length := by
    rcases Nat.lt_or_ge i l.length with h' | h'
    · exact h'
    · rw [List.getElem?_eq_none h'] at h; simp at h
  simp [this]

theorem set_other {l : List Thread} {i j : Nat} (hij : j ≠ i) (a : Thread) : (l.set i a)[j]? = l[j]? := by
  rw [List.getElem?_set, if_neg (fun e => hij e.symm)]

theorem Reach.snoc {ms : List Module} {a b : Ident} (h : Reach ms a b) {m : Module} (hm : m ∈ ms) (hb : m.id = b) {i : Ident}
    (hi : i ∈ m.imports) : Reach ms a i := by
  induction h with
  | refl a => rw [← hb]; exact .step m i i hm hi (.refl i)
  | step x j b hx hj _ ih => exact .step x j i hx hj (ih hb)

/-- A thread is replaced, nothing else changes. -/
theorem StackOk.same {ms : List Module} {w w' : World} {a : Option Ident} {fs : List Frame} (h : StackOk ms w a fs)
    (hb : w'.begun = w.begun) (hd : w'.done = w.done) (hds : w'.dicts = w.dicts) : StackOk ms w' a fs := by
  refine StackOk.mono (w := w) (by simp [hb]) (by simp [hd]) (by simp [hds]) (by simp [hds]) h ?_ (by simp [hds])
  intro f hf
  obtain ⟨b, m, hm⟩ := h.frame f hf
  rw [hd]
  exact hm.notDone

/-- What holds of thread `i` when it imports `n`; `th` is the thread when this is done. -/
structure Asking (ms : List Module) (ps : List (List Ident)) (w : World) (i : Nat) (mods : List Ident) (n : Ident) (th : Thread) : Prop where
  thread : ∃ t, w.threads[i]? = some t ∧ t.mods = mods
  holds : th.mods = mods
  stack : StackOk ms w (some n) th.stack
  fresh : n ∉ mods
  reach : ∃ p ∈ ps, ∃ r ∈ p, Reach ms r n
  known : ∃ m ∈ ms, m.id = n
  program : ∀ p, ps[i]? = some p → ∃ q, p = q ++ th.program ∧ ∀ k ∈ q, k ∈ w.done ∨ k ∈ mods ∨ k = n

/-- The module above is loaded. -/
theorem StackOk.loaded {ms : List Module} {w : World} {n : Ident} {fs : List Frame} (hn : n ∈ w.done) (h : StackOk ms w (some n) fs) :
    StackOk ms w none fs := by
  cases fs with
  | nil => trivial
  | cons f fs =>
    obtain ⟨⟨m, hm⟩, h⟩ := h
    refine ⟨⟨m, { hm with processed := ?_, above := by simp }⟩, h⟩
    intro i hi
    rcases hm.processed i hi with h | h | h
    · exact .inl h
    · exact .inr (.inl h)
    · simp only [Option.some.injEq] at h
      rw [← h]
      exact .inr (.inl hn)

theorem import_inv {ms : List Module} {ps : List (List Ident)} (hs : Sane ms) {w w' : World} (h : Inv ms ps w) {i : Nat}
    {mods : List Ident} {n : Ident} {th : Thread} (ha : Asking ms ps w i mods n th) (hw : importStep ms w i mods n th = .next w') :
    Inv ms ps w' := by
  obtain ⟨t0, ht0, hm0⟩ := ha.thread
  unfold importStep at hw
  split at hw
  · rename_i hn
    simp only [Outcome.next.injEq] at hw
    subst hw
    refine { h with stacks := ?_, disj := ?_, cover := ?_, size := ?_, programs := ?_ }
    · intro j t hj
      rcases get_set hj with ⟨rfl, rfl⟩ | ⟨_, hj⟩
      · exact (ha.stack.loaded hn).same rfl rfl rfl
      · exact (h.stacks j t hj).same rfl rfl rfl
    · intro j k tj tk hj hk x hx hy
      rcases get_set hj with ⟨rfl, rfl⟩ | ⟨_, hj1⟩ <;> rcases get_set hk with ⟨rfl, rfl⟩ | ⟨_, hk1⟩
      · rfl
      · exact h.disj _ k t0 tk ht0 hk1 x (by rwa [hm0, ← ha.holds]) hy
      · exact h.disj j _ tj t0 hj1 ht0 x hx (by rwa [hm0, ← ha.holds])
      · exact h.disj j k tj tk hj1 hk1 x hx hy
    · intro x hx
      rcases h.cover x hx with hc | ⟨j, t, hj, hc⟩
      · exact .inl hc
      · refine .inr ?_
        by_cases hji : j = i
        · subst hji
          obtain rfl := Option.some.inj (hj.symm.trans ht0)
          exact ⟨j, th, set_self hj th, by rwa [ha.holds, ← hm0]⟩
        · exact ⟨j, t, by rw [set_other hji]; exact hj, hc⟩
    · simp [h.size]
    · intro j t p hj hp
      rcases get_set hj with ⟨rfl, rfl⟩ | ⟨_, hj⟩
      · obtain ⟨q, h1, h2⟩ := ha.program p hp
        refine ⟨q, h1, fun k hk => ?_⟩
        rcases h2 k hk with h2 | h2 | h2
        · exact .inl h2
        · exact .inr (by rwa [ha.holds])
        · exact .inl (by rw [h2]; exact hn)
      · exact h.programs j t p hj hp
  · split at hw
    · rename_i hc
      exact absurd hc ha.fresh
    · split at hw
      · simp at hw
      · rename_i hnd _ hnb
        obtain ⟨m, hm, hid⟩ := ha.known
        have hfind := hs.ids m hm
        rw [hid] at hfind
        simp only [hfind, Outcome.next.injEq] at hw
        subst hw
        have hframe : FrameOk ms { w with begun := n :: w.begun } none ⟨n, m.imports, m.effects.flatMap Effect.atoms⟩ m := by
          refine { mem := hm, named := hid, begun := by simp, notDone := hnd, sub := fun _ h => h, processed := fun i hi => .inl hi,
                   above := by simp, targets := ?_, split := ⟨[], rfl, by simp, by simp⟩, pending := ?_ }
          · exact ((hs.targets m hm).mono (fun d hd => Or.inr hd)).atoms
          · intro d hd
            rw [flat_creates] at hd
            exact h.untouched m hm (by rw [hid]; exact hnb) d hd
        have hbegun : ∀ (j : Nat) (t : Thread), w.threads[j]? = some t → n ∉ t.mods := by
          intro j t hj hx
          obtain ⟨f, hf, hfx⟩ := List.mem_map.1 hx
          obtain ⟨b, m', hm'⟩ := (h.stacks j t hj).frame f hf
          exact hnb (by rw [← hfx]; exact hm'.begun)
        have hmods : (Thread.mk th.program (⟨n, m.imports, m.effects.flatMap Effect.atoms⟩ :: th.stack)).mods = n :: mods := by
          rw [← ha.holds]; rfl
        have hgrow : ∀ {a : Option Ident} {fs : List Frame}, StackOk ms w a fs → StackOk ms { w with begun := n :: w.begun } a fs := by
          intro a fs hst
          refine StackOk.mono (w := w) (w' := { w with begun := n :: w.begun }) (fun x hx => List.mem_cons_of_mem _ hx) (fun _ h => h) (fun _ h => h) (fun _ _ h => h) hst ?_
            (fun _ _ _ _ _ _ _ _ h => h)
          intro f hf
          obtain ⟨b, m', hm'⟩ := hst.frame f hf
          exact hm'.notDone
        refine { h with stacks := ?_, disj := ?_, cover := ?_, doneBegun := ?_, sound := ?_, untouched := ?_, size := ?_,
                        programs := ?_, reach := ?_ }
        · intro j t hj
          rcases get_set hj with ⟨rfl, rfl⟩ | ⟨_, hj⟩
          · exact StackOk.same (w := { w with begun := n :: w.begun }) ⟨⟨m, hframe⟩, hgrow ha.stack⟩ rfl rfl rfl
          · exact (hgrow (h.stacks j t hj)).same rfl rfl rfl
        · intro j k tj tk hj hk x hx hy
          rcases get_set hj with ⟨rfl, rfl⟩ | ⟨_, hj1⟩ <;> rcases get_set hk with ⟨rfl, rfl⟩ | ⟨_, hk1⟩
          · rfl
          · rw [hmods] at hx
            rcases List.mem_cons.1 hx with rfl | hx
            · exact absurd hy (hbegun k tk hk1)
            · exact h.disj _ k t0 tk ht0 hk1 x (by rwa [hm0]) hy
          · rw [hmods] at hy
            rcases List.mem_cons.1 hy with rfl | hy
            · exact absurd hx (hbegun j tj hj1)
            · exact h.disj j _ tj t0 hj1 ht0 x hx (by rwa [hm0])
          · exact h.disj j k tj tk hj1 hk1 x hx hy
        · intro x hx
          rcases List.mem_cons.1 hx with rfl | hx
          · exact .inr ⟨i, _, set_self ht0 _, by rw [hmods]; simp⟩
          · rcases h.cover x hx with hc | ⟨j, t, hj, hc⟩
            · exact .inl hc
            · refine .inr ?_
              by_cases hji : j = i
              · subst hji
                obtain rfl := Option.some.inj (hj.symm.trans ht0)
                exact ⟨j, _, set_self hj _, by rw [hmods, ← hm0]; exact List.mem_cons_of_mem _ hc⟩
              · exact ⟨j, t, by rw [set_other hji]; exact hj, hc⟩
        · exact fun x hx => List.mem_cons_of_mem _ (h.doneBegun x hx)
        · intro d k t hl
          obtain ⟨m', h1, h2, h3⟩ := h.sound d k t hl
          exact ⟨m', h1, List.mem_cons_of_mem _ h2, h3⟩
        · exact fun m' h1 h2 => h.untouched m' h1 (fun hb => h2 (List.mem_cons_of_mem _ hb))
        · simp [h.size]
        · intro j t p hj hp
          rcases get_set hj with ⟨rfl, rfl⟩ | ⟨_, hj⟩
          · obtain ⟨q, h1, h2⟩ := ha.program p hp
            refine ⟨q, h1, fun k hk => ?_⟩
            rw [hmods]
            rcases h2 k hk with h2 | h2 | h2
            · exact .inl h2
            · exact .inr (List.mem_cons_of_mem _ h2)
            · exact .inr (by simp [h2])
          · exact h.programs j t p hj hp
        · intro x hx
          rcases List.mem_cons.1 hx with rfl | hx
          · exact ha.reach
          · exact h.reach x hx

theorem importStep_ok {ms : List Module} {ps : List (List Ident)} (hs : Sane ms) {w : World} {i : Nat}
    {mods : List Ident} {n : Ident} {th : Thread} (ha : Asking ms ps w i mods n th) : importStep ms w i mods n th ≠ .raised := by
  unfold importStep
  obtain ⟨m, hm, hid⟩ := ha.known
  have hfind := hs.ids m hm
  rw [hid] at hfind
  split
  · simp
  · split
    · simp
    · split
      · simp
      · simp [hfind]

/-- A thread about to import the next module of its program. -/
theorem asking_program {ms : List Module} {ps : List (List Ident)} (hp : ∀ p ∈ ps, ∀ n ∈ p, ∃ m ∈ ms, m.id = n) {w : World}
    (h : Inv ms ps w) {i : Nat} {n : Ident} {ns : List Ident} (ht : w.threads[i]? = some ⟨n :: ns, []⟩) :
    Asking ms ps w i [] n ⟨ns, []⟩ := by
  have hi : i < ps.length := by
    rw [← h.size]
    rcases Nat.lt_or_ge i w.threads.length with h' | h'
    · exact h'
    · rw [List.getElem?_eq_none h'] at ht; simp at ht
  have hpi : ps[i]? = some ps[i] := List.getElem?_eq_getElem hi
  obtain ⟨q, h1, h2⟩ := h.programs i _ _ ht hpi
  have hmem : n ∈ ps[i] := by rw [h1]; simp
  refine ⟨⟨_, ht, rfl⟩, rfl, trivial, by simp, ⟨ps[i], List.getElem_mem hi, n, hmem, .refl n⟩, hp _ (List.getElem_mem hi) n hmem, ?_⟩
  intro p hp
  obtain rfl := Option.some.inj (hpi.symm.trans hp)
  refine ⟨q ++ [n], by rw [h1]; simp, fun k hk => ?_⟩
  rcases List.mem_append.1 hk with hk | hk
  · exact (h2 k hk).imp id (fun h => by simp [Thread.mods] at h)
  · exact .inr (.inr (by simpa using hk))

/-- A thread about to import a module that the module it is loading imports. -/
theorem asking_frame {ms : List Module} {ps : List (List Ident)} (hs : Sane ms) {w : World}
    (h : Inv ms ps w) {i : Nat} {n x : Ident} {ns pr : List Ident} {es : List Effect} {fs : List Frame}
    (ht : w.threads[i]? = some ⟨pr, ⟨x, n :: ns, es⟩ :: fs⟩) :
    Asking ms ps w i ((⟨x, n :: ns, es⟩ :: fs : List Frame).map Frame.mod) n ⟨pr, ⟨x, ns, es⟩ :: fs⟩ := by
  have hst := h.stacks i _ ht
  obtain ⟨⟨m, hm⟩, hst⟩ := hst
  have hn : n ∈ m.imports := hm.sub n (by simp)
  obtain ⟨hlt, hk⟩ := hs.imports m hm.mem n hn
  rw [hm.named] at hlt
  refine ⟨⟨_, ht, rfl⟩, rfl, ⟨⟨m, { hm with sub := ?_, processed := ?_, above := ?_ }⟩, hst⟩, ?_, ?_, hk, ?_⟩
  · exact fun j hj => hm.sub j (by simp [hj])
  · intro j hj
    rcases hm.processed j hj with h | h | h
    · rcases List.mem_cons.1 h with rfl | h
      · exact .inr (.inr rfl)
      · exact .inl h
    · exact .inr (.inl h)
    · simp at h
  · intro a ha
    simp only [Option.some.injEq] at ha
    rwa [← ha]
  · intro hc
    obtain ⟨f, hf, hfn⟩ := List.mem_map.1 hc
    rcases List.mem_cons.1 hf with rfl | hf
    · rw [← hfn] at hlt; exact Nat.lt_irrefl _ hlt
    · have := hst.below hs f hf
      rw [hfn] at this
      exact Nat.lt_irrefl _ (Nat.lt_trans this hlt)
  · obtain ⟨p, hp, r, hr, hre⟩ := h.reach x hm.begun
    exact ⟨p, hp, r, hr, hre.snoc hm.mem hm.named hn⟩
  · intro p hp
    obtain ⟨q, h1, h2⟩ := h.programs i _ p ht hp
    exact ⟨q, h1, fun k hk => (h2 k hk).imp id .inl⟩

/-- The frame of a module whose imports are done: what the next operation needs is there. -/
theorem effect_ok {ms : List Module} {ps : List (List Ident)} {w : World} (h : Inv ms ps w) {f : Frame} {m : Module}
    (hm : FrameOk ms w none f m) (hi : f.imports = []) {e : Effect} {es : List Effect} (he : f.effects = e :: es) :
    ∃ ds, e.run w.dicts = some ds := by
  have have_ : ∀ d, (w.dicts d ≠ none ∨ ∃ x ∈ ms, x.id ∈ m.imports ∧ d ∈ x.creates) → w.dicts d ≠ none := by
    rintro d (hd | ⟨x, hx, hxi, hdx⟩)
    · exact hd
    · rcases hm.processed x.id hxi with h1 | h1 | h1
      · simp [hi] at h1
      · exact (h.doneOk x hx h1).2.2 d hdx
      · simp at h1
  have ht := hm.targets
  rw [he] at ht
  cases e with
  | create d es => exact ⟨_, rfl⟩
  | update d es =>
    obtain ⟨x, hx⟩ := Option.ne_none_iff_exists'.1 (have_ d ht.1)
    simp [Effect.run, hx]
  | alias d t =>
    obtain ⟨x, hx⟩ := Option.ne_none_iff_exists'.1 (have_ t ht.1)
    simp [Effect.run, hx]

theorem mem_creates {ms : List Module} {w : World} {a : Option Ident} {f : Frame} {m : Module} (hm : FrameOk ms w a f m) {d : Ident}
    (hd : d ∈ f.effects.flatMap Effect.creates) : d ∈ m.creates := by
  obtain ⟨pre, h4, _, _⟩ := hm.split
  have : d ∈ (m.effects.flatMap Effect.atoms).flatMap Effect.creates := by
    rw [h4, List.flatMap_append]
    exact List.mem_append_right _ hd
  rwa [flat_creates] at this

theorem mem_writes {ms : List Module} {w : World} {a : Option Ident} {f : Frame} {m : Module} (hm : FrameOk ms w a f m)
    {x : Ident × Val × Ty} (hd : x ∈ f.effects.flatMap Effect.writes) : x ∈ m.writes := by
  obtain ⟨pre, h4, _, _⟩ := hm.split
  have : x ∈ (m.effects.flatMap Effect.atoms).flatMap Effect.writes := by
    rw [h4, List.flatMap_append]
    exact List.mem_append_right _ hd
  rwa [flat_writes] at this

/-- A thread is replaced by one that loads the same modules. -/
theorem disj_set {w : World} {i : Nat} {t0 th : Thread} (ht : w.threads[i]? = some t0) (hsub : ∀ n ∈ th.mods, n ∈ t0.mods)
    (h : ∀ (i j : Nat) (ti tj : Thread), w.threads[i]? = some ti → w.threads[j]? = some tj → ∀ n ∈ ti.mods, n ∈ tj.mods → i = j) :
    ∀ (j k : Nat) (tj tk : Thread), (w.threads.set i th)[j]? = some tj → (w.threads.set i th)[k]? = some tk →
      ∀ n ∈ tj.mods, n ∈ tk.mods → j = k := by
  intro j k tj tk hj hk x hx hy
  rcases get_set hj with ⟨rfl, rfl⟩ | ⟨_, hj1⟩ <;> rcases get_set hk with ⟨rfl, rfl⟩ | ⟨_, hk1⟩
  · rfl
  · exact h _ k t0 tk ht hk1 x (hsub x hx) hy
  · exact h j _ tj t0 hj1 ht x hx (hsub x hy)
  · exact h j k tj tk hj1 hk1 x hx hy

theorem effect_inv {ms : List Module} {ps : List (List Ident)} (hs : Sane ms) (hc : CreatedOnce ms) {w : World} (h : Inv ms ps w)
    {i : Nat} {x : Ident} {pr : List Ident} {e : Effect} {es : List Effect} {fs : List Frame}
    (ht : w.threads[i]? = some ⟨pr, ⟨x, [], e :: es⟩ :: fs⟩) {ds : Dicts} (hr : e.run w.dicts = some ds) :
    Inv ms ps { w with dicts := ds, threads := w.threads.set i ⟨pr, ⟨x, [], es⟩ :: fs⟩ } := by
  obtain ⟨⟨m, hm⟩, hst⟩ := h.stacks i _ ht
  have hx : m.id = x := hm.named
  have hcr : ∀ d ∈ e.creates, d ∈ m.creates := fun d hd => mem_creates hm (by simp [hd])
  obtain ⟨f1, f2, f3, f4, f5, f6⟩ := run_facts e w.dicts ds hr (fun d hd => hm.pending d (by simp [hd]))
  -- other modules do not create what `e` creates
  have hkeep : ∀ m' ∈ ms, m'.id ≠ x → ∀ d ∈ m'.creates, w.dicts d = none → ds d = none := by
    intro m' hm' hne d hd hn
    refine f6 d (fun hde => hne ?_) hn
    rw [← hx, creates_disjoint hc hm' hm.mem hd (hcr d hde)]
  have hother : ∀ {a : Option Ident} {gs : List Frame}, StackOk ms w a gs → (∀ g ∈ gs, g.mod ≠ x) →
      StackOk ms { w with dicts := ds } a gs := by
    intro a gs hg hne
    refine StackOk.mono (w := w) (w' := { w with dicts := ds }) (fun _ h => h) (fun _ h => h) f4 f3 hg ?_ ?_
    · intro g hgg
      obtain ⟨b, m', hm'⟩ := hg.frame g hgg
      exact hm'.notDone
    · intro g hgg m' hm' hid d _ hd hn
      exact hkeep m' hm' (by rw [hid]; exact hne g hgg) d hd hn
  have htop : FrameOk ms { w with dicts := ds } none ⟨x, [], es⟩ m := by
    refine { mem := hm.mem, named := hm.named, begun := hm.begun, notDone := hm.notDone, sub := by simp, processed := hm.processed,
             above := hm.above, targets := ?_, split := ?_, pending := ?_ }
    · have ht := hm.targets
      cases e with
      | create d xs =>
        refine Targets.mono ?_ ht
        rintro d' (rfl | hd)
        · exact .inl (f5 d' (by simp [Effect.creates]))
        · exact hd.imp (f4 d') id
      | update d xs => exact Targets.mono (fun d' hd => hd.imp (f4 d') id) ht.2
      | alias d t => exact Targets.mono (fun d' hd => hd.imp (f4 d') id) ht.2
    · obtain ⟨pre, h1, h2, h3⟩ := hm.split
      refine ⟨pre ++ [e], by rw [h1]; simp, ?_, ?_⟩
      · intro d k t hw
        rw [List.flatMap_append, List.mem_append] at hw
        rcases hw with hw | hw
        · exact f3 d k (h2 d k t hw)
        · exact f2 d k t (by simpa using hw)
      · intro d hd
        rw [List.flatMap_append, List.mem_append] at hd
        rcases hd with hd | hd
        · exact f4 d (h3 d hd)
        · exact f5 d (by simpa using hd)
    · intro d hd
      refine f6 d (fun hde => ?_) (hm.pending d (by simp only [List.flatMap_cons, List.mem_append]; exact .inr hd))
      obtain ⟨pre, h1, _, _⟩ := hm.split
      have hn := creates_nodup hc hm.mem
      have : m.creates = (pre ++ e :: es).flatMap Effect.creates := by rw [← h1, flat_creates]; rfl
      rw [this, List.flatMap_append, List.nodup_append, List.flatMap_cons, List.nodup_append] at hn
      exact hn.2.1.2.2 d hde d hd rfl
  have hne : ∀ g ∈ fs, g.mod ≠ x := by
    intro g hg hgx
    have := hst.below hs g hg
    rw [hgx] at this
    exact Nat.lt_irrefl _ this
  refine { h with stacks := ?_, disj := disj_set ht (fun _ h => h) h.disj, cover := ?_, doneOk := ?_, sound := ?_, untouched := ?_,
                  size := by simp [h.size], programs := ?_ }
  · intro j t hj
    rcases get_set hj with ⟨rfl, rfl⟩ | ⟨hji, hj⟩
    · exact StackOk.same (w := { w with dicts := ds }) ⟨⟨m, htop⟩, hother hst hne⟩ rfl rfl rfl
    · refine StackOk.same (w := { w with dicts := ds }) (hother (h.stacks j t hj) ?_) rfl rfl rfl
      intro g hg hgx
      exact hji (h.disj j i t _ hj ht x (List.mem_map.2 ⟨g, hg, hgx⟩) (by simp [Thread.mods]))
  · intro n hn
    rcases h.cover n hn with hc | ⟨j, t, hj, hc⟩
    · exact .inl hc
    · refine .inr ?_
      by_cases hji : j = i
      · subst hji
        obtain rfl := Option.some.inj (hj.symm.trans ht)
        exact ⟨j, _, set_self hj _, hc⟩
      · exact ⟨j, t, by rw [set_other hji]; exact hj, hc⟩
  · intro m' hm' hd
    obtain ⟨h1, h2, h3⟩ := h.doneOk m' hm' hd
    exact ⟨h1, fun d k t hw => f3 d k (h2 d k t hw), fun d hd => f4 d (h3 d hd)⟩
  · intro d k t hl
    rcases f1 d k t hl with hw | hl
    · exact ⟨m, hm.mem, by rw [hx]; exact hm.begun, mem_writes hm (by simp [hw])⟩
    · exact h.sound d k t hl
  · intro m' hm' hb d hd
    refine hkeep m' hm' (fun he => hb ?_) d hd (h.untouched m' hm' hb d hd)
    rw [he]
    exact hm.begun
  · intro j t p hj hp
    rcases get_set hj with ⟨rfl, rfl⟩ | ⟨_, hj⟩
    · obtain ⟨q, h1, h2⟩ := h.programs _ _ p ht hp
      exact ⟨q, h1, h2⟩
    · exact h.programs j t p hj hp

theorem done_inv {ms : List Module} {ps : List (List Ident)} (hs : Sane ms) {w : World} (h : Inv ms ps w)
    {i : Nat} {x : Ident} {pr : List Ident} {fs : List Frame} (ht : w.threads[i]? = some ⟨pr, ⟨x, [], []⟩ :: fs⟩) :
    Inv ms ps { w with done := x :: w.done, threads := w.threads.set i ⟨pr, fs⟩ } := by
  obtain ⟨⟨m, hm⟩, hst⟩ := h.stacks i _ ht
  have hx : m.id = x := hm.named
  have hother : ∀ {a : Option Ident} {gs : List Frame}, StackOk ms w a gs → (∀ g ∈ gs, g.mod ≠ x) →
      StackOk ms { w with done := x :: w.done } a gs := by
    intro a gs hg hne
    refine StackOk.mono (w := w) (w' := { w with done := x :: w.done }) (fun _ h => h) (fun _ h => List.mem_cons_of_mem _ h)
      (fun _ h => h) (fun _ _ h => h) hg ?_ (fun _ _ _ _ _ _ _ _ h => h)
    intro g hgg hd
    rcases List.mem_cons.1 hd with hd | hd
    · exact hne g hgg hd
    · obtain ⟨b, m', hm'⟩ := hg.frame g hgg
      exact hm'.notDone hd
  have hne : ∀ g ∈ fs, g.mod ≠ x := by
    intro g hg hgx
    have := hst.below hs g hg
    rw [hgx] at this
    exact Nat.lt_irrefl _ this
  refine { h with stacks := ?_, disj := disj_set ht (fun n hn => List.mem_cons_of_mem _ hn) h.disj, cover := ?_, doneBegun := ?_,
                  doneOk := ?_, size := by simp [h.size], programs := ?_ }
  · intro j t hj
    rcases get_set hj with ⟨rfl, rfl⟩ | ⟨hji, hj⟩
    · exact StackOk.same (w := { w with done := x :: w.done }) ((hother hst hne).loaded (by simp)) rfl rfl rfl
    · refine StackOk.same (w := { w with done := x :: w.done }) (hother (h.stacks j t hj) ?_) rfl rfl rfl
      intro g hg hgx
      exact hji (h.disj j i t _ hj ht x (List.mem_map.2 ⟨g, hg, hgx⟩) (by simp [Thread.mods]))
  · intro n hn
    rcases h.cover n hn with hc | ⟨j, t, hj, hc⟩
    · exact .inl (List.mem_cons_of_mem _ hc)
    · by_cases hji : j = i
      · subst hji
        obtain rfl := Option.some.inj (hj.symm.trans ht)
        rcases List.mem_cons.1 hc with rfl | hc
        · exact .inl (by simp)
        · exact .inr ⟨j, _, set_self hj _, hc⟩
      · exact .inr ⟨j, t, by rw [set_other hji]; exact hj, hc⟩
  · intro n hn
    rcases List.mem_cons.1 hn with rfl | hn
    · exact hm.begun
    · exact h.doneBegun n hn
  · intro m' hm' hd
    rcases List.mem_cons.1 hd with hd | hd
    · obtain rfl := same_module hs hm' hm.mem (hd.trans hx.symm)
      obtain ⟨pre, h1, h2, h3⟩ := hm.split
      simp only [List.append_nil] at h1
      refine ⟨?_, ?_, ?_⟩
      · intro j hj
        rcases hm.processed j hj with h | h | h
        · simp at h
        · exact List.mem_cons_of_mem _ h
        · simp at h
      · intro d k t hw
        refine h2 d k t ?_
        rw [← h1, flat_writes]
        exact hw
      · intro d hd
        refine h3 d ?_
        rw [← h1, flat_creates]
        exact hd
    · obtain ⟨h1, h2, h3⟩ := h.doneOk m' hm' hd
      exact ⟨fun j hj => List.mem_cons_of_mem _ (h1 j hj), h2, h3⟩
  · intro j t p hj hp
    rcases get_set hj with ⟨rfl, rfl⟩ | ⟨_, hj⟩
    · obtain ⟨q, h1, h2⟩ := h.programs _ _ p ht hp
      refine ⟨q, h1, fun k hk => ?_⟩
      rcases h2 k hk with h2 | h2
      · exact .inl (List.mem_cons_of_mem _ h2)
      · rcases List.mem_cons.1 h2 with rfl | h2
        · exact .inl (by simp)
        · exact .inr h2
    · obtain ⟨q, h1, h2⟩ := h.programs j t p hj hp
      exact ⟨q, h1, fun k hk => (h2 k hk).imp (List.mem_cons_of_mem _) id⟩

theorem step_inv {ms : List Module} {ps : List (List Ident)} (hs : Sane ms) (hc : CreatedOnce ms)
    (hp : ∀ p ∈ ps, ∀ n ∈ p, ∃ m ∈ ms, m.id = n) {w w' : World} (h : Inv ms ps w) {i : Nat} (hw : step ms w i = .next w') :
    Inv ms ps w' := by
  unfold step at hw
  split at hw
  · simp at hw
  · rename_i th ht
    obtain ⟨pr, st⟩ := th
    cases st with
    | nil =>
      cases pr with
      | nil => simp at hw
      | cons n ns => exact import_inv hs h (asking_program hp h ht) hw
    | cons f fs =>
      obtain ⟨x, im, ef⟩ := f
      cases im with
      | cons n ns => exact import_inv hs h (asking_frame hs h ht) hw
      | nil =>
        cases ef with
        | nil =>
          simp only [Outcome.next.injEq] at hw
          subst hw
          exact done_inv hs h ht
        | cons e es =>
          simp only at hw
          split at hw
          · simp at hw
          · rename_i ds hr
            simp only [Outcome.next.injEq] at hw
            subst hw
            exact effect_inv hs hc h ht hr

theorem steps_inv {ms : List Module} {ps : List (List Ident)} (hs : Sane ms) (hc : CreatedOnce ms)
    (hp : ∀ p ∈ ps, ∀ n ∈ p, ∃ m ∈ ms, m.id = n) {w w' : World} (h : Inv ms ps w) (hw : Steps ms w w') : Inv ms ps w' := by
  induction hw with
  | nil => exact h
  | snoc i _ hw ih => exact step_inv hs hc hp ih hw

/-- No step raises. -/
theorem step_ok {ms : List Module} {ps : List (List Ident)} (hs : Sane ms)
    (hp : ∀ p ∈ ps, ∀ n ∈ p, ∃ m ∈ ms, m.id = n) {w : World} (h : Inv ms ps w) (i : Nat) : step ms w i ≠ .raised := by
  unfold step
  split
  · simp
  · rename_i th ht
    obtain ⟨pr, st⟩ := th
    cases st with
    | nil =>
      cases pr with
      | nil => simp
      | cons n ns => exact importStep_ok hs (asking_program hp h ht)
    | cons f fs =>
      obtain ⟨x, im, ef⟩ := f
      cases im with
      | cons n ns => exact importStep_ok hs (asking_frame hs h ht)
      | nil =>
        cases ef with
        | nil => simp
        | cons e es =>
          obtain ⟨⟨m, hm⟩, _⟩ := h.stacks i _ ht
          obtain ⟨ds, hr⟩ := effect_ok h hm rfl rfl
          simp [hr]

/-! ## No deadlock -/

theorem importStep_blocked {ms : List Module} {w : World} {i : Nat} {mods : List Ident} {n : Ident} {th : Thread}
    (h : importStep ms w i mods n th = .blocked) : n ∈ w.begun ∧ n ∉ w.done := by
  unfold importStep at h
  split at h
  · simp at h
  · split at h
    · simp at h
    · split at h
      · rename_i h1 _ h2
        exact ⟨h2, h1⟩
      · split at h <;> simp at h

/-- A thread that waits: for a module another thread is loading, with a smaller number than those it is loading itself. -/
theorem blocked_waits {ms : List Module} {ps : List (List Ident)} (hs : Sane ms)
    {w : World} (h : Inv ms ps w) {i : Nat} (hb : step ms w i = .blocked) :
    ∃ n, n ∈ w.begun ∧ n ∉ w.done ∧ ∀ th, w.threads[i]? = some th → ∀ k ∈ th.mods, n.idx < k.idx := by
  unfold step at hb
  split at hb
  · simp at hb
  · rename_i th ht
    obtain ⟨pr, st⟩ := th
    cases st with
    | nil =>
      cases pr with
      | nil => simp at hb
      | cons n ns =>
        obtain ⟨h1, h2⟩ := importStep_blocked hb
        refine ⟨n, h1, h2, fun th hth k hk => ?_⟩
        obtain rfl := Option.some.inj (ht.symm.trans hth)
        simp [Thread.mods] at hk
    | cons f fs =>
      obtain ⟨x, im, ef⟩ := f
      cases im with
      | cons n ns =>
        obtain ⟨h1, h2⟩ := importStep_blocked hb
        refine ⟨n, h1, h2, fun th hth k hk => ?_⟩
        obtain rfl := Option.some.inj (ht.symm.trans hth)
        obtain ⟨g, hg, rfl⟩ := List.mem_map.1 hk
        have ha := asking_frame hs h ht
        rcases List.mem_cons.1 hg with rfl | hg
        · exact ha.stack.below hs ⟨x, ns, ef⟩ (by simp)
        · exact ha.stack.below hs g (by simp [hg])
      | nil =>
        cases ef with
        | nil => simp at hb
        | cons e es =>
          simp only at hb
          split at hb <;> simp at hb

theorem not_finished {ms : List Module} {w : World} {i : Nat} {th : Thread} (ht : w.threads[i]? = some th) {n : Ident}
    (hn : n ∈ th.mods) : step ms w i ≠ .finished := by
  unfold step
  simp only [ht]
  obtain ⟨pr, st⟩ := th
  cases st with
  | nil => simp [Thread.mods] at hn
  | cons f fs =>
    obtain ⟨x, im, ef⟩ := f
    cases im with
    | cons n ns =>
      simp only [importStep]
      split
      · simp
      · split
        · simp
        · split
          · simp
          · split <;> simp
    | nil =>
      cases ef with
      | nil => simp
      | cons e es =>
        simp only
        split <;> simp

theorem loader_goes_on {ms : List Module} {ps : List (List Ident)} (hs : Sane ms)
    (hp : ∀ p ∈ ps, ∀ n ∈ p, ∃ m ∈ ms, m.id = n) {w : World} (h : Inv ms ps w) : ∀ (r : Nat) (n : Ident) (j : Nat) (th : Thread),
      n.idx ≤ r → w.threads[j]? = some th → n ∈ th.mods → ∃ k w', step ms w k = .next w' := by
  intro r
  induction r with
  | zero =>
    intro n j th hr hj hn
    cases hst : step ms w j with
    | finished => exact absurd hst (not_finished hj hn)
    | raised => exact absurd hst (step_ok hs hp h j)
    | next w' => exact ⟨j, w', hst⟩
    | blocked =>
      obtain ⟨n', _, _, h3⟩ := blocked_waits hs h hst
      have := h3 th hj n hn
      omega
  | succ r ih =>
    intro n j th hr hj hn
    cases hst : step ms w j with
    | finished => exact absurd hst (not_finished hj hn)
    | raised => exact absurd hst (step_ok hs hp h j)
    | next w' => exact ⟨j, w', hst⟩
    | blocked =>
      obtain ⟨n', h1, h2, h3⟩ := blocked_waits hs h hst
      have := h3 th hj n hn
      rcases h.cover n' h1 with hd | ⟨k, t, hk, hnk⟩
      · exact absurd hd h2
      · exact ih n' k t (by omega) hk hnk

/-- If a thread has not finished, some thread can go on. -/
theorem progress {ms : List Module} {ps : List (List Ident)} (hs : Sane ms)
    (hp : ∀ p ∈ ps, ∀ n ∈ p, ∃ m ∈ ms, m.id = n) {w : World} (h : Inv ms ps w) (i : Nat) (hi : step ms w i ≠ .finished) :
    ∃ k w', step ms w k = .next w' := by
  cases hst : step ms w i with
  | finished => exact absurd hst hi
  | raised => exact absurd hst (step_ok hs hp h i)
  | next w' => exact ⟨i, w', hst⟩
  | blocked =>
    obtain ⟨n, h1, h2, _⟩ := blocked_waits hs h hst
    rcases h.cover n h1 with hd | ⟨k, t, hk, hnk⟩
    · exact absurd hd h2
    · exact loader_goes_on hs hp h n.idx n k t (Nat.le_refl _) hk hnk

/-! ## Termination -/

def Frame.weight (f : Frame) : Nat := 1 + f.imports.length + f.effects.length
def Thread.weight (t : Thread) : Nat := t.program.length + (t.stack.map Frame.weight).sum
def Module.cost (m : Module) : Nat := 1 + m.imports.length + (m.effects.flatMap Effect.atoms).length

/-- The modules not begun yet. -/
def unbegun (ms : List Module) (b : List Ident) : Nat := ((ms.filter (fun m => m.id ∉ b)).map Module.cost).sum

def World.weight (ms : List Module) (w : World) : Nat := (w.threads.map Thread.weight).sum + unbegun ms w.begun

theorem sum_set : ∀ {l : List Thread} {i : Nat} {a : Thread} (b : Thread), l[i]? = some a →
    ((l.set i b).map Thread.weight).sum + a.weight = (l.map Thread.weight).sum + b.weight
  | [], _, _, _, h => by simp at h
  | x :: l, 0, a, b, h => by
    simp only [List.getElem?_cons_zero, Option.some.injEq] at h
    subst h
    simp only [List.set_cons_zero, List.map_cons, List.sum_cons]
    omega
  | x :: l, i + 1, a, b, h => by
    have := sum_set (l := l) (i := i) (a := a) b (by simpa using h)
    simp only [List.set_cons_succ, List.map_cons, List.sum_cons]
    omega

theorem unbegun_cons : ∀ (ms : List Module) (b : List Ident) (n : Ident), unbegun ms (n :: b) ≤ unbegun ms b
  | [], _, _ => by simp [unbegun]
  | a :: ms, b, n => by
    have ih := unbegun_cons ms b n
    simp only [unbegun] at ih ⊢
    by_cases h1 : a.id ∈ b
    · simp [h1]; simpa using ih
    · by_cases h2 : a.id = n
      · subst h2
        simp [h1] at ih ⊢
        omega
      · simp [h1, h2] at ih ⊢; omega

theorem unbegun_find : ∀ {ms : List Module} {m : Module} (b : List Ident), m ∈ ms → m.id ∉ b →
    unbegun ms (m.id :: b) + m.cost ≤ unbegun ms b
  | [], _, _, h, _ => by simp at h
  | a :: ms, m, b, h, hb => by
    by_cases ha : a = m
    · subst ha
      have := unbegun_cons ms b a.id
      simp [unbegun, hb] at this ⊢
      omega
    · have hm : m ∈ ms := by
        rcases List.mem_cons.1 h with rfl | h
        · exact absurd rfl ha
        · exact h
      have ih := unbegun_find b hm hb
      simp only [unbegun] at ih ⊢
      by_cases h1 : a.id ∈ b
      · simp [h1] at ih ⊢; omega
      · by_cases h2 : a.id = m.id
        · simp [h2, hb] at ih ⊢; omega
        · simp [h1, h2] at ih ⊢; omega

theorem import_weight {ms : List Module} {w w' : World} {i : Nat} {mods : List Ident} {n : Ident} {t0 th : Thread}
    (ht : w.threads[i]? = some t0) (hwt : th.weight + 1 = t0.weight) (h : importStep ms w i mods n th = .next w') :
    w'.weight ms < w.weight ms := by
  unfold importStep at h
  split at h
  · simp only [Outcome.next.injEq] at h
    subst h
    have := sum_set th ht
    simp only [World.weight]
    omega
  · split at h
    · simp only [Outcome.next.injEq] at h
      subst h
      have := sum_set th ht
      simp only [World.weight]
      omega
    · split at h
      · simp at h
      · rename_i hb
        split at h
        · simp at h
        · rename_i m hf
          simp only [Outcome.next.injEq] at h
          subst h
          have hm := List.mem_of_find?_eq_some hf
          have hid : m.id = n := by simpa using List.find?_some hf
          have h1 := sum_set ⟨th.program, ⟨n, m.imports, m.effects.flatMap Effect.atoms⟩ :: th.stack⟩ ht
          have h2 := unbegun_find w.begun hm (by rw [hid]; exact hb)
          rw [hid] at h2
          simp only [World.weight, Thread.weight, List.map_cons, List.sum_cons, Frame.weight, Module.cost] at *
          omega

theorem step_weight {ms : List Module} {w w' : World} {i : Nat} (h : step ms w i = .next w') : w'.weight ms < w.weight ms := by
  unfold step at h
  split at h
  · simp at h
  · rename_i th ht
    obtain ⟨pr, st⟩ := th
    cases st with
    | nil =>
      cases pr with
      | nil => simp at h
      | cons n ns => exact import_weight ht (by simp [Thread.weight]) h
    | cons f fs =>
      obtain ⟨x, im, ef⟩ := f
      cases im with
      | cons n ns => exact import_weight ht (by simp [Thread.weight, Frame.weight]; omega) h
      | nil =>
        cases ef with
        | nil =>
          simp only [Outcome.next.injEq] at h
          subst h
          have := sum_set ⟨pr, fs⟩ ht
          simp only [World.weight, Thread.weight, List.map_cons, List.sum_cons, Frame.weight] at *
          omega
        | cons e es =>
          simp only at h
          split at h
          · simp at h
          · simp only [Outcome.next.injEq] at h
            subst h
            have := sum_set ⟨pr, ⟨x, [], es⟩ :: fs⟩ ht
            simp only [World.weight, Thread.weight, List.map_cons, List.sum_cons, Frame.weight, List.length_cons] at *
            omega

end Py
end Verif
