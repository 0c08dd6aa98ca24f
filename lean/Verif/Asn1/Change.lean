import Verif.Spec.Change
import Verif.Spec.Empty
import Verif.Asn1.DerLemmas
import Verif.Asn1.DerSort
import Verif.Asn1.KeepEnc

/-!
# Changing one place: proofs
-/

namespace Verif
namespace Asn1

open Der Change

/-! ## Tags -/

theorem changed_wrap {m : Bool} {e e' : Bytes} (isC : Bool) : ∀ (ts : TagSet) (c c' b b' : Bytes), Changed m e e' c c' →
    wrap isC ts c = some b → wrap isC ts c' = some b' → Changed m e e' b b'
  | [], c, c', b, b', h, hb, hb' => by
    simp only [wrap, Option.some.injEq] at hb hb'
    subst hb; subst hb'; exact h
  | t :: ts, c, c', b, b', h, hb, hb' => by
    simp only [wrap, tlv, Option.bind_eq_some_iff, Option.map_eq_some_iff] at hb hb'
    obtain ⟨_, ⟨l, hl, rfl⟩, hb⟩ := hb
    obtain ⟨_, ⟨l', hl', rfl⟩, hb'⟩ := hb'
    refine changed_wrap isC ts _ _ b b' ?_ hb hb'
    rw [← List.append_assoc, ← List.append_assoc]
    exact Changed.within c c' _ _ _ _ l l' h ((identifier_iff _ _ _ _).2 rfl) ((length_iff _ _).2 hl) ((length_iff _ _).2 hl')

theorem changed_fill {m : Bool} {e e' : Bytes} (isC : Bool) : ∀ (ts : TagSet) (c' b' : Bytes), Changed m e e' [] c' → c' ≠ [] →
    wrap isC ts c' = some b' → Changed m e e' [] b'
  | [], c', b', h, _, hb' => by
    simp only [wrap, Option.some.injEq] at hb'
    subst hb'; exact h
  | t :: ts, c', b', h, hne, hb' => by
    simp only [wrap, tlv, Option.bind_eq_some_iff, Option.map_eq_some_iff] at hb'
    obtain ⟨_, ⟨l', hl', rfl⟩, hb'⟩ := hb'
    refine changed_fill isC ts _ b' ?_ (by simp [encTag_ne_nil]) hb'
    rw [← List.append_assoc]
    exact Changed.fill c' _ _ _ _ l' h hne ((identifier_iff _ _ _ _).2 rfl) ((length_iff _ _).2 hl')

theorem changed_drain {m : Bool} {e e' : Bytes} (isC : Bool) : ∀ (ts : TagSet) (c b : Bytes), Changed m e e' c [] → c ≠ [] →
    wrap isC ts c = some b → Changed m e e' b []
  | [], c, b, h, _, hb => by
    simp only [wrap, Option.some.injEq] at hb
    subst hb; exact h
  | t :: ts, c, b, h, hne, hb => by
    simp only [wrap, tlv, Option.bind_eq_some_iff, Option.map_eq_some_iff] at hb
    obtain ⟨_, ⟨l, hl, rfl⟩, hb⟩ := hb
    refine changed_drain isC ts _ b ?_ (by simp [encTag_ne_nil]) hb
    rw [← List.append_assoc]
    exact Changed.drain c _ _ _ _ l h hne ((identifier_iff _ _ _ _).2 rfl) ((length_iff _ _).2 hl)

/-- Contents are put inside the tags, or left out if empty. -/
theorem changed_put {m ine : Bool} {e e' : Bytes} {ts : TagSet} {c c' b b' : Bytes} (h : Changed m e e' c c')
    (hb : (if (ine && c.isEmpty) = true then some [] else wrap true ts c) = some b)
    (hb' : (if (ine && c'.isEmpty) = true then some [] else wrap true ts c') = some b') : Changed m e e' b b' := by
  split at hb <;> split at hb'
  · rename_i h1 h2
    simp only [Bool.and_eq_true, List.isEmpty_iff] at h1 h2
    rw [h1.2, h2.2] at h
    simp only [Option.some.injEq] at hb hb'
    subst hb; subst hb'; exact h
  · rename_i h1 hn
    have hne : c' ≠ [] := by
      intro hc
      apply hn
      simp only [Bool.and_eq_true, hc, List.isEmpty_nil, and_true]
      exact (Bool.and_eq_true_iff.1 h1).1
    simp only [Bool.and_eq_true, List.isEmpty_iff] at h1
    rw [h1.2] at h
    simp only [Option.some.injEq] at hb
    subst hb
    exact changed_fill true ts c' b' h hne hb'
  · rename_i hn h2
    have hne : c ≠ [] := by
      intro hc
      apply hn
      simp only [Bool.and_eq_true, hc, List.isEmpty_nil, and_true]
      exact (Bool.and_eq_true_iff.1 h2).1
    simp only [Bool.and_eq_true, List.isEmpty_iff] at h2
    rw [h2.2] at h
    simp only [Option.some.injEq] at hb'
    subst hb'
    exact changed_drain true ts c b h hne hb
  · exact changed_wrap true ts c c' b b' h hb hb'

/-! ## Sorting -/

section
variable {α β : Type} (le : β → β → Bool) (key : α → β)
variable (htot : ∀ a b, le a b = false → le b a = true) (htr : ∀ a b c, le a b = true → le b c = true → le a c = true)

include htot htr in
/-- Sorting puts an element somewhere between the others, which are sorted as they are without it. -/
theorem sortBy_between (l r : List α) (x : α) :
    ∃ p q, sortBy le key (l ++ x :: r) = p ++ x :: q ∧ p ++ q = sortBy le key (l ++ r) := by
  let mark : List (Bool × α) := l.map (fun a => (true, a)) ++ (false, x) :: r.map (fun a => (true, a))
  let key' : Bool × α → β := fun p => key p.2
  have ht : ∀ s : List α, s.filter (fun _ => true) = s := fun s => List.filter_eq_self.2 (fun _ _ => rfl)
  have hf : ∀ s : List α, s.filter (fun _ => false) = [] := fun s => List.filter_eq_nil_iff.2 (fun _ _ => by simp)
  have h1 : (sortBy le key' mark).map Prod.snd = sortBy le key (l ++ x :: r) := by
    rw [sortBy_map le key' key Prod.snd (fun _ => rfl)]
    congr 1
    simp [mark, Function.comp_def]
  have h2 : ((sortBy le key' mark).filter (·.1)).map Prod.snd = sortBy le key (l ++ r) := by
    have := sortBy_filter le key' htot htr (fun p : Bool × α => p.1) mark
    rw [this, sortBy_map le key' key Prod.snd (fun _ => rfl)]
    congr 1
    simp [mark, List.filter_append, List.filter_map, Function.comp_def, ht]
  have h3 : ((sortBy le key' mark).filter (fun p => !p.1)) = [(false, x)] := by
    have := sortBy_filter le key' htot htr (fun p : Bool × α => !p.1) mark
    rw [this]
    simp [mark, List.filter_append, List.filter_map, Function.comp_def, sortBy, insertBy, hf]
  have h4 : (false, x) ∈ sortBy le key' mark := by
    have : (false, x) ∈ (sortBy le key' mark).filter (fun p => !p.1) := by rw [h3]; simp
    exact (List.mem_filter.1 this).1
  obtain ⟨p, q, hpq⟩ := List.append_of_mem h4
  rw [hpq] at h1 h2 h3
  have hall : p.filter (fun p => !p.1) = [] ∧ q.filter (fun p => !p.1) = [] := by
    simp only [List.filter_append, List.filter_cons, Bool.not_false, if_true] at h3
    have hl := congrArg List.length h3
    simp only [List.length_append, List.length_cons, List.length_nil] at hl
    exact ⟨List.eq_nil_of_length_eq_zero (by omega), List.eq_nil_of_length_eq_zero (by omega)⟩
  have hid : ∀ s : List (Bool × α), s.filter (fun p => !p.1) = [] → s.filter (·.1) = s := by
    intro s hs
    rw [List.filter_eq_self]
    intro a ha
    have := List.filter_eq_nil_iff.1 hs a ha
    simpa using this
  refine ⟨p.map Prod.snd, q.map Prod.snd, ?_, ?_⟩
  · rw [← h1]; simp
  · rw [← h2]
    simp [List.filter_append, hid p hall.1, hid q hall.2]
end

/-- The order does not depend on how far the elements are padded. -/
theorem sortBy_pad {α : Type} (n n' : Nat) (l : List (Bytes × α)) (h : ∀ p ∈ l, p.1.length ≤ n ∧ p.1.length ≤ n') :
    sortBy bytesLe (fun p => ljust n p.1) l = sortBy bytesLe (fun p => ljust n' p.1) l := by
  have hi : ∀ (x : Bytes × α) (l : List (Bytes × α)), (x.1.length ≤ n ∧ x.1.length ≤ n') →
      (∀ p ∈ l, p.1.length ≤ n ∧ p.1.length ≤ n') →
      insertBy bytesLe (fun p => ljust n p.1) x l = insertBy bytesLe (fun p => ljust n' p.1) x l := by
    intro x l hx hl
    induction l with
    | nil => rfl
    | cons y l ih =>
      have hy := hl y (List.mem_cons_self ..)
      have he : bytesLe (ljust n x.1) (ljust n y.1) = bytesLe (ljust n' x.1) (ljust n' y.1) := by
        rw [Bool.eq_iff_iff, bytesLe_ljust n _ _ hx.1 hy.1, bytesLe_ljust n' _ _ hx.2 hy.2]
      simp only [insertBy, he, ih (fun p hp => hl p (List.mem_cons_of_mem _ hp))]
  induction l with
  | nil => rfl
  | cons x l ih =>
    have hl : ∀ p ∈ l, p.1.length ≤ n ∧ p.1.length ≤ n' := fun p hp => h p (List.mem_cons_of_mem _ hp)
    rw [sortBy, sortBy, ih hl]
    refine hi x _ (h x (List.mem_cons_self ..)) (fun p hp => hl p ?_)
    exact (sortBy_perm _ _ l).mem_iff.1 hp

theorem maxLen_le (cs : List Bytes) : ∀ c ∈ cs, c.length ≤ maxLen cs := by
  induction cs with
  | nil => simp
  | cons d cs ih =>
    intro c hc
    have e : maxLen (d :: cs) = max d.length (maxLen cs) := rfl
    rw [e]
    rcases List.mem_cons.1 hc with rfl | hc
    · omega
    · have := ih c hc; omega

theorem sortChunks_between {α : Type} (l r : List (Bytes × α)) (x : Bytes × α) :
    ∃ p q, sortChunks (l ++ x :: r) = p ++ x :: q ∧ p ++ q = sortChunks (l ++ r) := by
  obtain ⟨p, q, h1, h2⟩ := sortBy_between bytesLe (fun p : Bytes × α => ljust (maxLen ((l ++ x :: r).map Prod.fst)) p.1)
    bytesLe_total bytesLe_trans l r x
  refine ⟨p, q, h1, h2.trans ?_⟩
  refine sortBy_pad _ _ _ (fun y hy => ⟨?_, ?_⟩)
  · refine maxLen_le _ _ (List.mem_map_of_mem ?_)
    simp only [List.mem_append, List.mem_cons] at hy ⊢
    rcases hy with h | h
    · exact Or.inl h
    · exact Or.inr (Or.inr h)
  · exact maxLen_le _ _ (List.mem_map_of_mem hy)

/-- Something or nothing in the middle, sorted or not: the rest is the same. -/
theorem arrange_slot {α : Type} (f : List α → List α) (hf : ∀ l r x, ∃ p q, f (l ++ x :: r) = p ++ x :: q ∧ p ++ q = f (l ++ r))
    (g : α → Bytes) (l r : List α) (o : Option α) :
    ∃ p q, (f (l ++ (o.toList ++ r))).flatMap g = (p.map g ++ (o.elim [] g) :: q.map g).flatten ∧ p ++ q = f (l ++ r) := by
  cases o with
  | none =>
    refine ⟨f (l ++ r), [], ?_, by simp⟩
    simp [List.flatMap]
  | some x =>
    obtain ⟨p, q, h1, h2⟩ := hf l r x
    refine ⟨p, q, ?_, h2⟩
    simp [h1, List.flatMap]

theorem changed_slots {α : Type} {m : Bool} (isSet : Bool) (hm : isSet = true → m = true) (f : List α → List α)
    (hf : ∀ l r x, ∃ p q, f (l ++ x :: r) = p ++ x :: q ∧ p ++ q = f (l ++ r))
    (g : α → Bytes) (l r : List α) (o o' : Option α) {e e' : Bytes} (h : Changed m e e' (o.elim [] g) (o'.elim [] g)) :
    Changed m e e' ((if isSet then f (l ++ (o.toList ++ r)) else l ++ (o.toList ++ r)).flatMap g)
      ((if isSet then f (l ++ (o'.toList ++ r)) else l ++ (o'.toList ++ r)).flatMap g) := by
  cases isSet with
  | false =>
    have hs : ∀ o : Option α, (l ++ (o.toList ++ r)).flatMap g = (l.map g ++ (o.elim [] g) :: r.map g).flatten := by
      intro o; cases o <;> simp [List.flatMap]
    simp only [Bool.false_eq_true, if_false]
    rw [hs o, hs o']
    exact Changed.between _ _ _ _ _ _ h rfl (fun _ => rfl)
  | true =>
    simp only [if_true]
    obtain ⟨p, q, h1, h2⟩ := arrange_slot f hf g l r o
    obtain ⟨p', q', h1', h2'⟩ := arrange_slot f hf g l r o'
    rw [h1, h1']
    refine Changed.between _ _ _ _ _ _ h ?_ (fun h0 => by rw [hm rfl] at h0; cases h0)
    rw [← List.map_append, ← List.map_append, h2, h2']

theorem sortB_between (l r : List Bytes) (x : Bytes) : ∃ p q, sortB (l ++ x :: r) = p ++ x :: q ∧ p ++ q = sortB (l ++ r) := by
  let mk : Bytes → Bytes × Unit := fun b => (b, ())
  have hm : ∀ l : List Bytes, (l.map mk).map Prod.fst = l := by intro l; simp [mk, Function.comp_def]
  obtain ⟨p, q, h1, h2⟩ := sortChunks_between (l.map mk) (r.map mk) (mk x)
  refine ⟨p.map Prod.fst, q.map Prod.fst, ?_, ?_⟩
  · have := congrArg (List.map Prod.fst) h1
    rw [sortChunks_fst] at this
    simpa [mk, Function.comp_def] using this
  · have := congrArg (List.map Prod.fst) h2
    rw [sortChunks_fst] at this
    simpa [mk, Function.comp_def] using this

/-! ## Components -/

/-- The octets of a component, with its sort key, or nothing. -/
def Slot (f : Field) (t : Ty) (v : Val) (o : Option (TagSet × Bytes)) : Prop :=
  (written f v = none ∧ o = none) ∨ (written f v = some v ∧ ∃ b, enc f.mode.isOpt t v = some b ∧ o = some (setKey t v, b))

theorem Slot.same {f : Field} {t : Ty} {v : Val} {o o' : Option (TagSet × Bytes)} (h : Slot f t v o) (h' : Slot f t v o') : o = o' := by
  rcases h with ⟨h1, rfl⟩ | ⟨h1, b, h2, rfl⟩ <;> rcases h' with ⟨h1', rfl⟩ | ⟨h1', b', h2', rfl⟩
  · rfl
  · rw [h1] at h1'; cases h1'
  · rw [h1] at h1'; cases h1'
  · rw [h2] at h2'; cases h2'; rfl

theorem encComps_slot {f : Field} {t : Ty} {cs : Comps} {v : Val} {vs : Vals} {ps : List (TagSet × Bytes)}
    (h : encComps (.cons f t cs) (.cons v vs) = some ps) :
    ∃ o qs, encComps cs vs = some qs ∧ ps = o.toList ++ qs ∧ Slot f t v o := by
  obtain ⟨qs, h1, h2⟩ := encComps_cons h
  rcases h2 with ⟨_, h2, rfl⟩ | ⟨h2, h3, b, h4, rfl⟩
  · exact ⟨none, ps, h1, rfl, Or.inl ⟨by simp only [written, if_pos h2], rfl⟩⟩
  · refine ⟨some (setKey t v, b), qs, h1, rfl, Or.inr ⟨?_, b, h4, rfl⟩⟩
    have hn : ¬ (v = .absent ∨ f.mode = .dflt v) := by simp [h2, h3]
    simp only [written, if_neg hn]

theorem encComps_place {f : Field} {t : Ty} {x x' : Val} {ws : List Val} {gs : List (Field × Ty)} :
    ∀ (fs : List (Field × Ty)) (us : List Val) (cs : Comps) (vs vs' : Vals) (ps ps' : List (TagSet × Bytes)),
    cs.toList = fs ++ (f, t) :: gs → vs.toList = us ++ x :: ws → vs'.toList = us ++ x' :: ws → us.length = fs.length →
    encComps cs vs = some ps → encComps cs vs' = some ps' →
    ∃ l r o o', ps = l ++ (o.toList ++ r) ∧ ps' = l ++ (o'.toList ++ r) ∧ Slot f t x o ∧ Slot f t x' o'
  | [], u :: us, _, _, _, _, _, _, _, _, hl, _, _ => by simp at hl
  | _ :: _, [], _, _, _, _, _, _, _, _, hl, _, _ => by simp at hl
  | [], [], cs, vs, vs', ps, ps', hc, hv, hv', _, hp, hp' => by
    cases cs with
    | nil => simp [Comps.toList] at hc
    | cons g u cs =>
      cases vs with
      | nil => simp [Vals.toList] at hv
      | cons y vs =>
        cases vs' with
        | nil => simp [Vals.toList] at hv'
        | cons y' vs' =>
          simp only [Comps.toList, List.nil_append, List.cons.injEq, Prod.mk.injEq] at hc
          simp only [Vals.toList, List.nil_append, List.cons.injEq] at hv hv'
          obtain ⟨⟨rfl, rfl⟩, _⟩ := hc
          obtain ⟨rfl, h1⟩ := hv
          obtain ⟨rfl, h2⟩ := hv'
          obtain ⟨o, qs, e1, rfl, s1⟩ := encComps_slot hp
          obtain ⟨o', qs', e2, rfl, s2⟩ := encComps_slot hp'
          have : vs = vs' := by
            have h3 := h1.trans h2.symm
            have := congrArg Vals.ofList h3
            simpa [Vals.ofList_toList] using this
          subst this
          rw [e1] at e2
          cases e2
          exact ⟨[], qs, o, o', rfl, rfl, s1, s2⟩
  | _ :: fs, u :: us, cs, vs, vs', ps, ps', hc, hv, hv', hl, hp, hp' => by
    cases cs with
    | nil => simp [Comps.toList] at hc
    | cons g q cs =>
      cases vs with
      | nil => simp [Vals.toList] at hv
      | cons y vs =>
        cases vs' with
        | nil => simp [Vals.toList] at hv'
        | cons y' vs' =>
          simp only [Comps.toList, List.cons_append, List.cons.injEq] at hc
          simp only [Vals.toList, List.cons_append, List.cons.injEq] at hv hv'
          obtain ⟨rfl, h1⟩ := hv
          obtain ⟨rfl, h2⟩ := hv'
          obtain ⟨o, qs, e1, rfl, s1⟩ := encComps_slot hp
          obtain ⟨o', qs', e2, rfl, s2⟩ := encComps_slot hp'
          have := s1.same s2
          subst this
          obtain ⟨l, r, p, p', rfl, rfl, t1, t2⟩ := encComps_place fs us cs vs vs' qs qs' hc.2 h1 h2 (by simpa using hl) e1 e2
          exact ⟨o.toList ++ l, r, p, p', by simp, by simp, t1, t2⟩

theorem mapOpt_place {f : Val → Option Bytes} {o o' : Option Val} {ws : List Val} : ∀ (us : List Val) (ps ps' : List Bytes),
    mapOpt f (us ++ (o.toList ++ ws)) = some ps → mapOpt f (us ++ (o'.toList ++ ws)) = some ps' →
    ∃ (l r : List Bytes) (p p' : Option Bytes), ps = l ++ (p.toList ++ r) ∧ ps' = l ++ (p'.toList ++ r) ∧ o.map f = p.map some ∧ o'.map f = p'.map some
  | [], ps, ps', h, h' => by
    have key : ∀ (o : Option Val) (ps : List Bytes), mapOpt f (o.toList ++ ws) = some ps →
        ∃ (r : List Bytes) (p : Option Bytes), mapOpt f ws = some r ∧ ps = p.toList ++ r ∧ o.map f = p.map some := by
      intro o ps h
      cases o with
      | none => exact ⟨ps, none, h, rfl, rfl⟩
      | some x =>
        simp only [Option.toList_some, List.cons_append, List.nil_append, mapOpt] at h
        cases h1 : f x with
        | none => simp [h1] at h
        | some y =>
          cases h2 : mapOpt f ws with
          | none => simp [h1, h2] at h
          | some r =>
            simp only [h1, h2, Option.some.injEq] at h
            exact ⟨r, some y, rfl, by simp [← h], by simp [h1]⟩
    obtain ⟨r, p, e1, e2, e3⟩ := key o ps h
    obtain ⟨r', p', e1', e2', e3'⟩ := key o' ps' h'
    rw [e1] at e1'
    cases e1'
    exact ⟨[], r, p, p', e2, e2', e3, e3'⟩
  | u :: us, ps, ps', h, h' => by
    simp only [List.cons_append, mapOpt] at h h'
    cases h1 : f u with
    | none => simp [h1] at h
    | some y =>
      cases h2 : mapOpt f (us ++ (o.toList ++ ws)) with
      | none => simp [h1, h2] at h
      | some qs =>
        cases h3 : mapOpt f (us ++ (o'.toList ++ ws)) with
        | none => simp [h1, h3] at h'
        | some qs' =>
          simp only [h1, h2, Option.some.injEq] at h
          simp only [h1, h3, Option.some.injEq] at h'
          obtain ⟨l, r, p, p', rfl, rfl, e, e'⟩ := mapOpt_place us qs qs' h2 h3
          exact ⟨y :: l, r, p, p', by simp [← h], by simp [← h'], e, e'⟩

/-! ## Legal values without empty optional collections -/

def Good (ine : Bool) (t : Ty) (v : Val) : Prop :=
  t.wf = true ∧ t.valid v = true ∧ t.kept ine v = true ∧ (ine = true → t.vanish v = false)

theorem good_field {f : Field} {t : Ty} {x : Val} {ws : List Val} {gs : List (Field × Ty)} (hx : written f x = some x) :
    ∀ (fs : List (Field × Ty)) (us : List Val) (cs : Comps) (vs : Vals),
    cs.toList = fs ++ (f, t) :: gs → vs.toList = us ++ x :: ws → us.length = fs.length → cs.wf = true → cs.valid vs = true →
    cs.kept vs = true → Good f.mode.isOpt t x
  | [], u :: us, _, _, _, _, hl, _, _, _ => by simp at hl
  | _ :: _, [], _, _, _, _, hl, _, _, _ => by simp at hl
  | [], [], cs, vs, hc, hv, _, hw, hg, hk => by
    cases cs with
    | nil => simp [Comps.toList] at hc
    | cons g u cs =>
      cases vs with
      | nil => simp [Vals.toList] at hv
      | cons y vs =>
        simp only [Comps.toList, List.nil_append, List.cons.injEq, Prod.mk.injEq] at hc
        simp only [Vals.toList, List.nil_append, List.cons.injEq] at hv
        obtain ⟨⟨rfl, rfl⟩, _⟩ := hc
        obtain ⟨rfl, _⟩ := hv
        simp only [Comps.wf, Bool.and_eq_true] at hw
        simp only [Comps.valid, Bool.and_eq_true] at hg
        simp only [Comps.kept, Bool.and_eq_true] at hk
        have h1 := hg.1
        have h2 := hk.1
        simp only [written] at hx
        split at hx
        · cases hx
        · rename_i hn
          simp only [not_or] at hn
          cases hm : g.mode with
          | req =>
            simp only [hm] at h1 h2
            exact ⟨hw.1, h1, h2, by simp [Mode.isOpt]⟩
          | opt =>
            simp only [hm, Bool.or_eq_true, beq_iff_eq, hn.1, false_or, Bool.and_eq_true, Bool.not_eq_true'] at h1 h2
            exact ⟨hw.1, h1, h2.2, fun _ => h2.1⟩
          | dflt d =>
            have hd : ¬ y = d := by
              intro h; apply hn.2; rw [hm, h]
            simp only [hm, Bool.or_eq_true, beq_iff_eq, hd, false_or] at h1 h2
            exact ⟨hw.1, h1, h2, by simp [Mode.isOpt]⟩
  | _ :: fs, u :: us, cs, vs, hc, hv, hl, hw, hg, hk => by
    cases cs with
    | nil => simp [Comps.toList] at hc
    | cons g q cs =>
      cases vs with
      | nil => simp [Vals.toList] at hv
      | cons y vs =>
        simp only [Comps.toList, List.cons_append, List.cons.injEq] at hc
        simp only [Vals.toList, List.cons_append, List.cons.injEq] at hv
        simp only [Comps.wf, Bool.and_eq_true] at hw
        simp only [Comps.valid, Bool.and_eq_true] at hg
        simp only [Comps.kept, Bool.and_eq_true] at hk
        exact good_field hx fs us cs vs hc.2 hv.2 (by simpa using hl) hw.2 hg.2 hk.2

theorem good_seq {ine isSet : Bool} {a : Attrs} {cs : Comps} {vs : Vals} {f : Field} {t : Ty} {x : Val} {ws : List Val}
    {gs fs : List (Field × Ty)} {us : List Val} (hx : written f x = some x) (hc : cs.toList = fs ++ (f, t) :: gs)
    (hv : vs.toList = us ++ x :: ws) (hl : us.length = fs.length) (h : Good ine (.seq isSet a cs) (.record vs)) :
    Good f.mode.isOpt t x := by
  obtain ⟨h1, h2, h3, _⟩ := h
  simp only [Ty.wf, Bool.and_eq_true] at h1
  simp only [Ty.valid, Bool.and_eq_true] at h2
  simp only [Ty.kept] at h3
  exact good_field hx fs us cs vs hc hv hl h1.1.1.2 h2.1 h3

theorem good_of {ine isSet : Bool} {a : Attrs} {t : Ty} {vs : Vals} {x : Val} (hx : x ∈ vs.toList)
    (h : Good ine (.of isSet a t) (.list vs)) : Good ine t x := by
  obtain ⟨h1, h2, h3, _⟩ := h
  simp only [Ty.wf, Bool.and_eq_true] at h1
  simp only [Ty.valid, Bool.and_eq_true, Vals.every_iff, List.all_eq_true] at h2
  simp only [Ty.kept, Vals.every_iff, List.all_eq_true, Bool.and_eq_true, Bool.not_eq_true', Bool.and_eq_false_iff] at h3
  exact ⟨h1.2, h2.1 x hx, (h3 x hx).1, fun h => by simpa [h] using (h3 x hx).2⟩

theorem alt_place {f : Field} {t : Ty} {x : Val} {gs : List (Field × Ty)} : ∀ (fs : List (Field × Ty)) (cs : Comps),
    cs.toList = fs ++ (f, t) :: gs → (∀ ine, encAlt ine cs fs.length x = enc ine t x) ∧ cs.validAlt fs.length x = t.valid x ∧
      (∀ ine, cs.keptAlt ine fs.length x = t.kept ine x) ∧ cs.vanishAlt fs.length x = t.vanish x ∧ (cs.wf = true → t.wf = true)
  | [], cs, h => by
    cases cs with
    | nil => simp [Comps.toList] at h
    | cons g u cs =>
      simp only [Comps.toList, List.nil_append, List.cons.injEq, Prod.mk.injEq] at h
      obtain ⟨⟨rfl, rfl⟩, _⟩ := h
      simp only [List.length_nil, encAlt, Comps.validAlt, Comps.keptAlt, Comps.vanishAlt, Comps.wf, Bool.and_eq_true, true_and, implies_true]
      exact fun h => h.1
  | _ :: fs, cs, h => by
    cases cs with
    | nil => simp [Comps.toList] at h
    | cons g u cs =>
      simp only [Comps.toList, List.cons_append, List.cons.injEq] at h
      obtain ⟨h1, h2, h3, h4, h5⟩ := alt_place fs cs h.2
      simp only [List.length_cons, encAlt, Comps.validAlt, Comps.keptAlt, Comps.vanishAlt, Comps.wf, Bool.and_eq_true]
      exact ⟨h1, h2, h3, h4, fun h => h5 h.2⟩

/-! ## The theorem -/

/-- The octets at the place: none if nothing is there. -/
def Wrote (j : Bool) (s : Ty) : Option Val → Bytes → Prop
  | none, e => e = []
  | some w, e => enc j s w = some e

theorem Slot.wrote {f : Field} {t : Ty} {x : Val} {o : Option (TagSet × Bytes)} (h : Slot f t x o) :
    Wrote f.mode.isOpt t (written f x) (o.elim [] Prod.snd) := by
  rcases h with ⟨h1, rfl⟩ | ⟨h1, b, h2, rfl⟩
  · rw [h1]; rfl
  · rw [h1]; exact h2

theorem Slot.octets {f : Field} {t : Ty} {x : Val} {o : Option (TagSet × Bytes)} (h : Slot f t x o) (hx : written f x = some x) :
    enc f.mode.isOpt t x = some (o.elim [] Prod.snd) := by
  have := h.wrote
  rwa [hx] at this

theorem written_eq {f : Field} {x w : Val} (h : written f x = some w) : w = x ∧ written f x = some x := by
  simp only [written] at h ⊢
  split at h
  · cases h
  · rename_i hn
    cases h
    exact ⟨rfl, by rw [if_neg hn]⟩

theorem enc_seq_content {ine isSet : Bool} {a : Attrs} {cs : Comps} {vs : Vals} {b : Bytes}
    (h : enc ine (.seq isSet a cs) (.record vs) = some b) :
    ∃ ps, encComps cs vs = some ps ∧
      (if (ine && ((if isSet then sortBy tagsLe Prod.fst ps else ps).flatMap Prod.snd).isEmpty) = true then some []
        else wrap true a.tags ((if isSet then sortBy tagsLe Prod.fst ps else ps).flatMap Prod.snd)) = some b := by
  simp only [enc] at h
  split at h
  · cases he : encComps cs vs with
    | none => simp [he] at h
    | some ps =>
      simp only [he] at h
      exact ⟨ps, rfl, h⟩
  · cases h

theorem enc_of_content {ine isSet : Bool} {a : Attrs} {t : Ty} {vs : Vals} {b : Bytes}
    (h : enc ine (.of isSet a t) (.list vs) = some b) :
    ∃ ps, mapOpt (enc ine t) vs.toList = some ps ∧
      (if (ine && ((if isSet then sortB ps else ps).flatMap id).isEmpty) = true then some []
        else wrap true a.tags ((if isSet then sortB ps else ps).flatMap id)) = some b := by
  rw [enc_of_eq] at h
  split at h
  · cases he : mapOpt (enc ine t) vs.toList with
    | none => simp [he] at h
    | some ps =>
      simp only [he] at h
      refine ⟨ps, rfl, ?_⟩
      simpa [List.flatMap_id] using h
  · cases h

theorem changed_seq {m ine isSet : Bool} (hm : isSet = true → m = true) {a : Attrs} {cs : Comps} {vs vs' : Vals} {b b' : Bytes}
    {f : Field} {t : Ty} {x x' : Val} {ws us : List Val} {fs gs : List (Field × Ty)}
    (hc : cs.toList = fs ++ (f, t) :: gs) (hv : vs.toList = us ++ x :: ws) (hv' : vs'.toList = us ++ x' :: ws)
    (hl : us.length = fs.length) (hb : enc ine (.seq isSet a cs) (.record vs) = some b)
    (hb' : enc ine (.seq isSet a cs) (.record vs') = some b') :
    ∃ o o', Slot f t x o ∧ Slot f t x' o' ∧ ∀ e e', Changed m e e' (o.elim [] Prod.snd) (o'.elim [] Prod.snd) → Changed m e e' b b' := by
  obtain ⟨ps, h1, h2⟩ := enc_seq_content hb
  obtain ⟨ps', h1', h2'⟩ := enc_seq_content hb'
  obtain ⟨l, r, o, o', rfl, rfl, s1, s2⟩ := encComps_place fs us cs vs vs' ps ps' hc hv hv' hl h1 h1'
  refine ⟨o, o', s1, s2, fun e e' h => changed_put ?_ h2 h2'⟩
  exact changed_slots isSet hm _ (fun l r x => sortBy_between tagsLe Prod.fst tagsLe_total tagsLe_trans l r x) Prod.snd l r o o' h

theorem changed_of {m ine isSet : Bool} (hm : isSet = true → m = true) {a : Attrs} {t : Ty} {vs vs' : Vals} {b b' : Bytes}
    {o o' : Option Val} {ws us : List Val} (hv : vs.toList = us ++ (o.toList ++ ws)) (hv' : vs'.toList = us ++ (o'.toList ++ ws))
    (hb : enc ine (.of isSet a t) (.list vs) = some b) (hb' : enc ine (.of isSet a t) (.list vs') = some b') :
    ∃ p p' : Option Bytes, o.map (enc ine t) = p.map some ∧ o'.map (enc ine t) = p'.map some ∧
      ∀ e e', Changed m e e' (p.elim [] id) (p'.elim [] id) → Changed m e e' b b' := by
  obtain ⟨ps, h1, h2⟩ := enc_of_content hb
  obtain ⟨ps', h1', h2'⟩ := enc_of_content hb'
  rw [hv] at h1
  rw [hv'] at h1'
  obtain ⟨l, r, p, p', rfl, rfl, e1, e2⟩ := mapOpt_place us ps ps' h1 h1'
  refine ⟨p, p', e1, e2, fun e e' h => changed_put ?_ h2 h2'⟩
  exact changed_slots isSet hm _ sortB_between id l r p p' h

theorem wrote_of {ine : Bool} {t : Ty} {o : Option Val} {p : Option Bytes} (h : o.map (enc ine t) = p.map some) :
    Wrote ine t o (p.elim [] id) := by
  cases o <;> cases p <;> simp at h
  · rfl
  · exact h

/-- One place differs: so do the octets. -/
theorem changed_enc {m : Bool} {t s : Ty} {v v' : Val} {o o' : Option Val} (h : Differ m t v v' s o o') :
    ∀ (ine : Bool) (b b' : Bytes), enc ine t v = some b → enc ine t v' = some b' →
    ∃ j e e', Wrote j s o e ∧ Wrote j s o' e' ∧ Changed m e e' b b' ∧
      (∀ w, o = some w → Good ine t v → Good j s w) ∧ (∀ w, o' = some w → Good ine t v' → Good j s w) := by
  induction h with
  | here t v v' =>
    intro ine b b' hb hb'
    exact ⟨ine, b, b', hb, hb', .here, fun w h hg => by cases h; exact hg, fun w h hg => by cases h; exact hg⟩
  | field isSet a cs vs vs' fs gs f t us ws x x' hm hc hv hv' hl =>
    intro ine b b' hb hb'
    obtain ⟨p, p', s1, s2, hch⟩ := changed_seq (m := m) hm hc hv hv' hl hb hb'
    refine ⟨f.mode.isOpt, _, _, s1.wrote, s2.wrote, hch _ _ .here, ?_, ?_⟩
    · intro w hw hg
      obtain ⟨rfl, hx⟩ := written_eq hw
      exact good_seq hx hc hv hl hg
    · intro w hw hg
      obtain ⟨rfl, hx⟩ := written_eq hw
      exact good_seq hx hc hv' hl hg
  | inField isSet a cs vs vs' fs gs f t us ws x x' s o o' hm hc hv hv' hl hx hx' _ ih =>
    intro ine b b' hb hb'
    obtain ⟨p, p', s1, s2, hch⟩ := changed_seq (m := m) hm hc hv hv' hl hb hb'
    obtain ⟨j, e, e', w1, w2, hc2, g1, g2⟩ := ih _ _ _ (s1.octets hx) (s2.octets hx')
    exact ⟨j, e, e', w1, w2, hch _ _ hc2, fun w hw hg => g1 w hw (good_seq hx hc hv hl hg),
      fun w hw hg => g2 w hw (good_seq hx' hc hv' hl hg)⟩
  | element isSet a t vs vs' us ws o o' hm hv hv' =>
    intro ine b b' hb hb'
    obtain ⟨p, p', s1, s2, hch⟩ := changed_of (m := m) hm hv hv' hb hb'
    refine ⟨ine, _, _, wrote_of s1, wrote_of s2, hch _ _ .here, ?_, ?_⟩
    · intro w hw hg
      exact good_of (by rw [hv, hw]; simp) hg
    · intro w hw hg
      exact good_of (by rw [hv', hw]; simp) hg
  | inElement isSet a t vs vs' us ws x x' s o o' hm hv hv' _ ih =>
    intro ine b b' hb hb'
    obtain ⟨p, p', s1, s2, hch⟩ := changed_of (m := m) (o := some x) (o' := some x') hm (by simpa using hv) (by simpa using hv') hb hb'
    obtain ⟨j, e, e', w1, w2, hc2, g1, g2⟩ := ih ine _ _ (wrote_of s1) (wrote_of s2)
    exact ⟨j, e, e', w1, w2, hch _ _ hc2, fun w hw hg => g1 w hw (good_of (by rw [hv]; simp) hg),
      fun w hw hg => g2 w hw (good_of (by rw [hv']; simp) hg)⟩
  | inAlternative a cs fs gs f t x x' s o o' hc _ ih =>
    intro ine b b' hb hb'
    obtain ⟨p1, p2, p3, p4, p5⟩ := alt_place (x := x) fs cs hc
    obtain ⟨q1, q2, q3, q4, _⟩ := alt_place (x := x') fs cs hc
    simp only [enc, p1, q1] at hb hb'
    cases he : enc ine t x with
    | none => simp [he] at hb
    | some c =>
      cases he' : enc ine t x' with
      | none => simp [he'] at hb'
      | some c' =>
        simp only [he] at hb
        simp only [he'] at hb'
        obtain ⟨j, e, e', w1, w2, hc2, g1, g2⟩ := ih ine c c' he he'
        refine ⟨j, e, e', w1, w2, changed_put hc2 hb hb', fun w hw hg => g1 w hw ?_, fun w hw hg => g2 w hw ?_⟩
        · obtain ⟨h1, h2, h3, h4⟩ := hg
          simp only [Ty.wf, Bool.and_eq_true] at h1
          simp only [Ty.valid, p2] at h2
          simp only [Ty.kept, p3] at h3
          simp only [Ty.vanish, p4] at h4
          exact ⟨p5 h1.1.2, h2, h3, h4⟩
        · obtain ⟨h1, h2, h3, h4⟩ := hg
          simp only [Ty.wf, Bool.and_eq_true] at h1
          simp only [Ty.valid, q2] at h2
          simp only [Ty.kept, q3] at h3
          simp only [Ty.vanish, q4] at h4
          exact ⟨p5 h1.1.2, h2, h3, h4⟩

mutual
theorem Ty.kept_mono : ∀ (t : Ty) (i : Bool) (v : Val), t.kept i v = true → t.kept false v = true
  | .prim _ _, _, v, _ => by simp [Ty.kept]
  | .seq _ _ _, _, v, h => by
    cases v <;> simp only [Ty.kept] at h ⊢
    exact h
  | .of _ _ t, i, v, h => by
    cases v <;> simp only [Ty.kept] at h ⊢
    simp only [Vals.every_iff, List.all_eq_true, Bool.and_eq_true] at h ⊢
    exact fun x hx => ⟨Ty.kept_mono t i x (h x hx).1, by simp⟩
  | .choice _ cs, i, v, h => by
    cases v <;> simp only [Ty.kept] at h ⊢
    exact Comps.keptAlt_mono cs i _ _ h
  | .bad _, _, v, _ => by simp [Ty.kept]
theorem Comps.keptAlt_mono : ∀ (cs : Comps) (i : Bool) (n : Nat) (v : Val), cs.keptAlt i n v = true → cs.keptAlt false n v = true
  | .nil, _, _, _, _ => by simp [Comps.keptAlt]
  | .cons _ t _, i, 0, v, h => by
    simp only [Comps.keptAlt] at h ⊢
    exact Ty.kept_mono t i v h
  | .cons _ _ cs, i, n + 1, v, h => by
    simp only [Comps.keptAlt] at h ⊢
    exact Comps.keptAlt_mono cs i n v h
end

theorem Good.encode {j : Bool} {s : Ty} {w : Val} (h : Good j s w) : enc j s w = encode s w := by
  obtain ⟨h1, h2, h3, h4⟩ := h
  rw [enc_held s j w h1 h2 h3 h4, Asn1.encode, enc_held s false w h1 h2 (Ty.kept_mono s j w h3) (by simp)]

end Asn1
end Verif
