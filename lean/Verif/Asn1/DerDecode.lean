import Verif.Asn1.DerPrim
import Verif.Asn1.Roundtrip
import Verif.Spec.Empty

/-!
# The decoder reads every DER encoding of every legal value
-/

namespace Verif
namespace Asn1

open Der

theorem each2_all2 {α β : Type} {p : α → β → Prop} : ∀ (as : List α) (bs : List β), each2 p as bs ↔ all2 p as bs
  | [], [] => Iff.rfl
  | a :: as, b :: bs => by simp only [each2, all2, each2_all2 as bs]
  | [], _ :: _ => Iff.rfl
  | _ :: _, [] => Iff.rfl

theorem utf16_each : ∀ (s : List Char) (bs : List Octets), each2 (Character .utf16be) s bs → ∀ c ∈ s, c.toNat < 65536 := by
  intro s
  induction s with
  | nil => simp
  | cons a s ih =>
    intro bs h c hc
    cases bs with
    | nil => exact h.elim
    | cons b bs =>
      rcases List.mem_cons.1 hc with rfl | hc
      · obtain ⟨x, y, _, h⟩ := h.1
        have := x.toNat_lt; have := y.toNat_lt; omega
      · exact ih bs h.2 c hc

/-- Contents octets of DER are read back. -/
theorem contents_decode (named : Bool) (k : Prim) (v : Val) (c : Octets) (hl : primLegal k v = true)
    (h : Contents named k v c) : decPrim k c = some v := by
  have viaEnc : careful named k v → decPrim k c = some v := by
    intro hc
    exact decPrim_encPrim k v c ((contents_iff named k v c hl hc).1 h) hl
  cases k with
  | integer =>
    cases v with
    | int i => simp only [Contents] at h; simp only [decPrim, ← twos_decInt, h.2.1]
    | _ => simp [Contents] at h
  | enumerated =>
    cases v with
    | int i => simp only [Contents] at h; simp only [decPrim, ← twos_decInt, h.2.1]
    | _ => simp [Contents] at h
  | bitString =>
    cases v with
    | bits bs =>
      apply viaEnc
      obtain ⟨u, body, _, _, _, _, h⟩ := h
      exact h
    | _ => simp [Contents] at h
  | str k =>
    cases v with
    | str s =>
      apply viaEnc
      cases k with
      | utf16be =>
        obtain ⟨bs, h, _⟩ := h
        exact utf16_each s bs h
      | _ => trivial
    | _ => simp [Contents] at h
  | utcTime =>
    cases v with
    | str s => exact viaEnc h.1
    | _ => simp [Contents] at h
  | generalizedTime =>
    cases v with
    | str s => exact viaEnc h.1
    | _ => simp [Contents] at h
  | boolean => apply viaEnc; cases v <;> trivial
  | octetString => apply viaEnc; cases v <;> trivial
  | null => apply viaEnc; cases v <;> trivial
  | oid => apply viaEnc; cases v <;> trivial
  | any => apply viaEnc; cases v <;> trivial

/-- What an encoding means for the decoder. -/
def DD (t : Ty) (v : Val) (b : Bytes) : Prop :=
  ∃ x w, IsTLV b x ∧ t.matches x = true ∧ decT t x = some w ∧ t.reorder v w

def DDC (cs : Comps) (vs : Vals) (es : List Bytes) : Prop :=
  ∃ xs ws, all2 IsTLV es xs ∧
    (cs.seqOk = true → decComps cs xs = some ws ∧ ∀ x, xs.head? = some x → cs.windowMatches x = true) ∧
    (∀ x ∈ xs, cs.matches x = true) ∧
    (cs.pairOk = true → ∀ ys, ys.Perm xs → decSet cs ys = some ws) ∧
    cs.reorder vs ws ∧ presentNames cs ws = presentNames cs vs

def DDA (cs : Comps) (i : Nat) (v : Val) (b : Bytes) : Prop :=
  ∃ x w, IsTLV b x ∧ cs.matches x = true ∧
    (cs.pairOk = true → ∀ k, decAlt cs k x = some (.alt (k + i) w)) ∧ cs.reorderAlt i v w

theorem Ty.reorder_absent (t : Ty) (v w : Val) (h : t.reorder v w) (hv : v ≠ .absent) : w ≠ .absent := by
  cases t with
  | prim => simp only [Ty.reorder] at h; rw [← h]; exact hv
  | _ => cases v <;> cases w <;> simp [Ty.reorder] at h ⊢

theorem dd_prim (k : Prim) (a : Attrs) (v : Val) (b : Bytes) (hw : (Ty.prim k a).wf = true)
    (hv : (Ty.prim k a).valid v = true) (he : encodes (.prim k a) v b) : DD (.prim k a) v b := by
  simp only [encodes] at he
  obtain ⟨c, hc, ht⟩ := he
  simp only [Ty.valid, Bool.and_eq_true] at hv
  simp only [Ty.wf] at hw
  have hdec := contents_decode _ k v c hv.1.1 hc
  by_cases hk : k = .any
  · subst hk
    have hov : v = .octets c := by cases v <;> simp [Contents] at hc; rw [hc]
    subst hov
    simp only [beq_self_eq_true, if_true, decide_eq_true_eq] at hw
    cases hts : a.tags with
    | nil =>
      rw [hts] at ht
      simp only [Tagged] at ht; subst ht
      have h1 := hv.2
      simp only [hts, oneElement] at h1
      split at h1
      · rename_i x hx
        obtain ⟨h2, h3⟩ := isTLV_of_read _ _ hx
        exact ⟨x, .octets b, h2, by simp [Ty.matches, hts], by simp [decT, decPrimT, hts, h3], rfl⟩
      · simp at h1
    | cons t ts =>
      have : ts = [] := by rw [hts] at hw; simp at hw; exact hw
      subst this
      rw [hts] at ht
      have ht' : Tagged true [{ t with constructed := true }] c b := ht
      rw [tagged_iff false _ _ _ _ (by simp [fits])] at ht'
      simp only [wrap, Option.bind_eq_some_iff, Option.some.injEq] at ht'
      obtain ⟨b1, h1, rfl⟩ := ht'
      have h2 := isTLV_tlv _ _ _ _ h1
      exact ⟨_, .octets c, h2, by simp [Ty.matches, hts, TLV.has], by simp [decT, decPrimT, hts, TLV.has], rfl⟩
  · have hkb : (k == Prim.any) = false := by simpa using hk
    simp only [hkb, Bool.false_eq_true, if_false] at hw ht
    rw [tagged_iff false _ _ _ _ (fits_prim _ hw)] at ht
    cases hts : a.tags with
    | nil => simp [hts, primTags] at hw
    | cons t ts =>
      rw [hts] at hw ht
      simp only [primTags, Bool.and_eq_true, Bool.not_eq_true'] at hw
      obtain ⟨x, y, e1, e2, e3, e4, e5⟩ := wrap_spec false t ts c b (by simpa using hw.2) ht
      refine ⟨x, v, e1, ?_, ?_, rfl⟩
      · simp only [Ty.matches, hts]
        cases hl : (t :: ts).getLast? with
        | none => simp at hl
        | some l => exact e5 l hl
      · simp only [decT, decPrimT, hkb, hts, e2, e4, e3, hw.1, Bool.or_false, Bool.false_eq_true, if_false, hdec]
        simp [hv.1.2]

theorem all2_isTLV_items : ∀ (es : List Bytes) (xs : List TLV), all2 IsTLV es xs → items es.flatten = some xs
  | [], [], _ => rfl
  | [], _ :: _, h => h.elim
  | _ :: _, [], h => h.elim
  | e :: es, x :: xs, h => by
    rw [List.flatten_cons]
    exact items_cons h.1 _ _ (all2_isTLV_items es xs h.2)

theorem dd_seq (s : Bool) (a : Attrs) (cs : Comps) (v : Val) (b : Bytes)
    (ih : ∀ vs es, cs.wf = true → cs.valid vs = true → components cs vs es → DDC cs vs es)
    (hw : (Ty.seq s a cs).wf = true) (hv : (Ty.seq s a cs).valid v = true) (he : encodes (.seq s a cs) v b) :
    DD (.seq s a cs) v b := by
  cases v <;> simp [Ty.valid] at hv
  rename_i vs
  simp only [Ty.wf, Bool.and_eq_true] at hw
  obtain ⟨⟨⟨hct, hcw⟩, hok⟩, _⟩ := hw
  simp only [encodes] at he
  obtain ⟨es, fs, hcomp, har, ht⟩ := he
  rw [tagged_iff true _ _ _ _ (fits_cons _)] at ht
  obtain ⟨xs, ws, h1, h2, h3, h4, h5, h6⟩ := ih vs es hcw hv.1 hcomp
  have hys : ∃ ys, ys.Perm xs ∧ (s = false → ys = xs) ∧ items fs.flatten = some ys := by
    cases s with
    | false =>
      simp only [Bool.false_eq_true, if_false] at har; subst har
      exact ⟨xs, List.Perm.refl _, fun _ => rfl, all2_isTLV_items _ _ h1⟩
    | true =>
      simp only [if_true] at har
      obtain ⟨ys, hy1, hy2⟩ := all2_perm har.1.symm h1
      exact ⟨ys, hy1.symm, fun h => by simp at h, all2_isTLV_items _ _ hy2⟩
  obtain ⟨ys, hperm, hseq, hit⟩ := hys
  obtain ⟨x, e1, e2, e3, e4⟩ := innerItems_wrap a _ b ys hct ht hit
  refine ⟨x, .record ws, e1, ?_, ?_, h5⟩
  · simp only [Ty.matches]
    cases hl : a.tags.getLast? with
    | none => simp at hl; exact absurd hl e3
    | some l => exact e2 l hl
  · simp only [decT, e4]
    have : (if s then (if ys.all cs.matches then decSet cs ys else none) else decComps cs ys) = some ws := by
      cases s with
      | false =>
        simp only [Bool.false_eq_true, if_false] at hok ⊢
        rw [hseq rfl]; exact (h2 hok).1
      | true =>
        simp only [if_true, Bool.and_eq_true] at hok ⊢
        have : ys.all cs.matches = true := by
          rw [List.all_eq_true]
          exact fun z hz => h3 z (hperm.mem_iff.1 hz)
        rw [if_pos this]
        exact h4 hok.1 ys hperm
    rw [this]
    simp [h6, hv.2]

/-- One element: its value, its encoding, what is read, what it decodes to. -/
structure Quad where
  v : Val
  e : Bytes
  x : TLV
  w : Val

theorem quads (t : Ty) : ∀ (vs : List Val) (es : List Bytes), each2 (encodes t) vs es →
    (∀ v b, v ∈ vs → encodes t v b → DD t v b) →
    ∃ qs : List Quad, qs.map Quad.v = vs ∧ qs.map Quad.e = es ∧
      ∀ q ∈ qs, IsTLV q.e q.x ∧ decT t q.x = some q.w ∧ t.reorder q.v q.w
  | [], [], _, _ => ⟨[], rfl, rfl, by simp⟩
  | [], _ :: _, h, _ => h.elim
  | _ :: _, [], h, _ => h.elim
  | v :: vs, e :: es, h, ih => by
    obtain ⟨qs, h1, h2, h3⟩ := quads t vs es h.2 (fun u b hu => ih u b (List.mem_cons_of_mem _ hu))
    obtain ⟨x, w, g1, _, g3, g4⟩ := ih v e List.mem_cons_self h.1
    refine ⟨⟨v, e, x, w⟩ :: qs, by simp [h1], by simp [h2], ?_⟩
    intro q hq
    rcases List.mem_cons.1 hq with rfl | hq
    · exact ⟨g1, g3, g4⟩
    · exact h3 q hq

theorem all2_of_mem {α β γ : Type} {p : β → γ → Prop} (f : α → β) (g : α → γ) : ∀ (l : List α),
    (∀ x ∈ l, p (f x) (g x)) → all2 p (l.map f) (l.map g)
  | [], _ => trivial
  | x :: l, h => ⟨h x List.mem_cons_self, all2_of_mem f g l (fun y hy => h y (List.mem_cons_of_mem _ hy))⟩

theorem perm_map_lift {α β : Type} (f : α → β) (l : List α) (m : List β) (h : m.Perm (l.map f)) :
    ∃ l' : List α, l'.Perm l ∧ l'.map f = m := by
  have h1 : all2 (fun b a => f a = b) (l.map f) l := by
    have := all2_of_mem (p := fun b a => f a = b) f id l (fun _ _ => rfl)
    simpa using this
  obtain ⟨l', hp, h2⟩ := all2_perm h.symm h1
  refine ⟨l', hp.symm, ?_⟩
  clear hp h1 h
  induction l' generalizing m with
  | nil => cases m with
    | nil => rfl
    | cons => exact h2.elim
  | cons a l' ih => cases m with
    | nil => exact h2.elim
    | cons b m => rw [List.map_cons, ih m h2.2, h2.1]

theorem dd_of (s : Bool) (a : Attrs) (t : Ty) (v : Val) (b : Bytes)
    (ih : ∀ v b, t.wf = true → t.valid v = true → encodes t v b → DD t v b)
    (hw : (Ty.of s a t).wf = true) (hv : (Ty.of s a t).valid v = true) (he : encodes (.of s a t) v b) :
    DD (.of s a t) v b := by
  cases v <;> simp [Ty.valid] at hv
  rename_i vs
  rw [Vals.every_iff, List.all_eq_true] at hv
  simp only [Ty.wf, Bool.and_eq_true] at hw
  simp only [encodes] at he
  obtain ⟨es, fs, hel, har, ht⟩ := he
  rw [tagged_iff true _ _ _ _ (fits_cons _)] at ht
  obtain ⟨qs, h1, h2, h3⟩ := quads t _ _ hel (fun u b hu => ih u b hw.2 (hv.1 u hu))
  have hqs : ∃ rs : List Quad, rs.Perm qs ∧ rs.map Quad.e = fs ∧ (s = false → rs = qs) := by
    cases s with
    | false =>
      simp only [Bool.false_eq_true, if_false] at har
      exact ⟨qs, List.Perm.refl _, by rw [har, h2], fun _ => rfl⟩
    | true =>
      simp only [if_true] at har
      have := har.1
      rw [← h2] at this
      obtain ⟨rs, hp, hr⟩ := perm_map_lift _ _ _ this
      exact ⟨rs, hp, hr, fun h => by simp at h⟩
  obtain ⟨rs, hp, hr, hs⟩ := hqs
  have hm : ∀ q ∈ rs, IsTLV q.e q.x ∧ decT t q.x = some q.w ∧ t.reorder q.v q.w := fun q hq => h3 q (hp.mem_iff.1 hq)
  have hit : items fs.flatten = some (rs.map Quad.x) := by
    apply all2_isTLV_items
    rw [← hr]
    exact all2_of_mem _ _ _ (fun q hq => (hm q hq).1)
  obtain ⟨x, e1, e2, e3, e4⟩ := innerItems_wrap a _ b _ hw.1 ht hit
  refine ⟨x, .list (.ofList (rs.map Quad.w)), e1, ?_, ?_, ?_⟩
  · simp only [Ty.matches]
    cases hl : a.tags.getLast? with
    | none => simp at hl; exact absurd hl e3
    | some l => exact e2 l hl
  · have : mapOpt (decT t) (rs.map Quad.x) = some (rs.map Quad.w) := by
      rw [mapOpt_all2]
      exact all2_of_mem (p := fun x w => decT t x = some w) _ _ _ (fun q hq => (hm q hq).2.1)
    simp only [decT, e4, this]
  · simp only [Ty.reorder, Vals.toList_ofList]
    refine ⟨rs.map Quad.v, ?_, all2_of_mem _ _ _ (fun q hq => (hm q hq).2.2)⟩
    cases s with
    | false => simp only [Bool.false_eq_true, if_false]; rw [hs rfl, h1]
    | true => simp only [if_true]; rw [← h1]; exact hp.map _

theorem dd_choice (a : Attrs) (cs : Comps) (v : Val) (b : Bytes)
    (ih : ∀ i v b, cs.wf = true → cs.validAlt i v = true → alternative cs i v b → DDA cs i v b)
    (hw : (Ty.choice a cs).wf = true) (hv : (Ty.choice a cs).valid v = true) (he : encodes (.choice a cs) v b) :
    DD (.choice a cs) v b := by
  cases v <;> simp [Ty.valid] at hv
  rename_i i v
  simp only [Ty.wf, Bool.and_eq_true, Bool.or_eq_true] at hw
  obtain ⟨⟨hct, hcw⟩, hok⟩ := hw
  simp only [encodes] at he
  obtain ⟨c, hc, ht⟩ := he
  rw [tagged_iff true _ _ _ _ (fits_cons _)] at ht
  obtain ⟨x, w, h1, h2, h3, h4⟩ := ih i v c hcw hv hc
  have hdec := h3 hok 0
  rw [Nat.zero_add] at hdec
  cases hts : a.tags with
  | nil =>
    rw [hts] at ht
    simp only [wrap, Option.some.injEq] at ht
    subst ht
    refine ⟨x, .alt i w, h1, by simp [Ty.matches, hts, h2], ?_, ⟨rfl, h4⟩⟩
    simp only [decT, hts]
    exact hdec
  | cons t ts =>
    rw [hts] at ht hct
    simp only [List.isEmpty_cons, Bool.false_eq_true, consTags, false_or] at hct
    obtain ⟨z, y, e1, e2, e3, e4, e5⟩ := wrap_spec true t ts c b (by simpa using hct) ht
    refine ⟨z, .alt i w, e1, ?_, ?_, ⟨rfl, h4⟩⟩
    · simp only [Ty.matches, hts]
      cases hl : (t :: ts).getLast? with
      | none => simp at hl
      | some l => exact e5 l hl
    · simp only [decT, hts, e2, e3, h1.read]
      exact hdec

theorem ddc_cons (f : Field) (t : Ty) (cs : Comps) (vs : Vals) (es : List Bytes)
    (iht : ∀ v b, t.wf = true → t.valid v = true → encodes t v b → DD t v b)
    (ihc : ∀ vs es, cs.wf = true → cs.valid vs = true → components cs vs es → DDC cs vs es)
    (hw : (Comps.cons f t cs).wf = true) (hv : (Comps.cons f t cs).valid vs = true)
    (he : components (.cons f t cs) vs es) : DDC (.cons f t cs) vs es := by
  cases vs with
  | nil => simp [Comps.valid] at hv
  | cons v vs =>
  simp only [Comps.wf, Bool.and_eq_true] at hw
  simp only [Comps.valid, Bool.and_eq_true] at hv
  simp only [components] at he
  have skip : ∀ w, f.mode.missing = some w → v = w → components cs vs es →
      (match f.mode with
       | .req => t.reorder v w
       | .opt => (v = .absent ∧ w = .absent) ∨ (v ≠ .absent ∧ t.reorder v w)
       | .dflt d => (v = d ∧ w = d) ∨ (v ≠ d ∧ t.reorder v w)) → DDC (.cons f t cs) (.cons v vs) es := by
    intro w hmis hvw hco hre
    obtain ⟨xs, ws, h1, h2, h3, h4, h5, h6⟩ := ihc vs es hw.2 hv.2 hco
    have hreq : f.mode.isReq = false := by cases hf : f.mode <;> simp_all [Mode.isReq, Mode.missing]
    refine ⟨xs, .cons w ws, h1, ?_, ?_, ?_, ⟨hre, h5⟩, ?_⟩
    · intro hs
      simp only [Comps.seqOk, hreq, Bool.false_or, Bool.and_eq_true] at hs
      obtain ⟨g1, g2⟩ := h2 hs.2
      cases xs with
      | nil => exact ⟨by simp [decComps, hmis, g1], by simp⟩
      | cons x xs =>
        have gw := g2 x rfl
        have gm := Ty.disjointWindow_matches t x cs hs.1 gw
        refine ⟨?_, ?_⟩
        · simp [decComps, hreq, gm, gw, hmis, g1]
        · intro y hy
          simp only [List.head?_cons, Option.some.injEq] at hy; subst hy
          simp [Comps.windowMatches, hreq, gw]
    · intro x hx; simp [Comps.matches, h3 x hx]
    · intro hp ys hperm
      simp only [Comps.pairOk, Bool.and_eq_true] at hp
      have hnil : ys.filter t.matches = [] := by
        rw [List.filter_eq_nil_iff]
        intro x hx
        rw [Ty.disjointAll_matches' t x cs hp.1 (h3 x (hperm.mem_iff.1 hx))]
        simp
      simp [decSet, hnil, mapOpt, h4 hp.2 ys hperm, hmis]
    · subst hvw; simp only [presentNames, h6]
  have put : ∀ e es', es = e :: es' → encodes t v e → components cs vs es' → t.valid v = true →
      (∀ w, t.reorder v w → match f.mode with
       | .req => t.reorder v w
       | .opt => (v = .absent ∧ w = .absent) ∨ (v ≠ .absent ∧ t.reorder v w)
       | .dflt d => (v = d ∧ w = d) ∨ (v ≠ d ∧ t.reorder v w)) → DDC (.cons f t cs) (.cons v vs) es := by
    intro e es' hes hen hco hval hre
    subst hes
    obtain ⟨xs, ws, h1, h2, h3, h4, h5, h6⟩ := ihc vs es' hw.2 hv.2 hco
    obtain ⟨x, w, g1, g2, g3, g4⟩ := iht v e hw.1 hval hen
    have hna := Ty.valid_ne_absent t v hval
    have hwa := Ty.reorder_absent t v w g4 hna
    refine ⟨x :: xs, .cons w ws, ⟨g1, h1⟩, ?_, ?_, ?_, ⟨hre w g4, h5⟩, ?_⟩
    · intro hs
      simp only [Comps.seqOk, Bool.and_eq_true] at hs
      obtain ⟨k1, _⟩ := h2 hs.2
      refine ⟨by simp [decComps, g2, g3, k1], ?_⟩
      intro y hy
      simp only [List.head?_cons, Option.some.injEq] at hy; subst hy
      simp [Comps.windowMatches, g2]
    · intro y hy
      rcases List.mem_cons.1 hy with rfl | hy
      · simp [Comps.matches, g2]
      · simp [Comps.matches, h3 y hy]
    · intro hp ys hperm
      simp only [Comps.pairOk, Bool.and_eq_true] at hp
      have hone : ys.filter t.matches = [x] := by
        have := hperm.filter t.matches
        have h0 : xs.filter t.matches = [] := by
          rw [List.filter_eq_nil_iff]
          intro y hy
          rw [Ty.disjointAll_matches' t y cs hp.1 (h3 y hy)]; simp
        rw [List.filter_cons_of_pos g2, h0] at this
        exact List.perm_singleton.1 this
      have hrest : decSet cs ys = some ws := by
        rw [← decSet_filter cs.matches cs ys (fun _ h => h)]
        apply h4 hp.2
        have := hperm.filter cs.matches
        have hx : cs.matches x = false := Ty.disjointAll_matches t x cs hp.1 g2
        rw [List.filter_cons_of_neg (by simp [hx]), List.filter_eq_self.2 h3] at this
        exact this
      simp [decSet, hone, mapOpt, g3, hrest]
    · simp [presentNames, hna, hwa, h6]
  cases hf : f.mode with
  | req =>
    simp only [hf] at he hv
    obtain ⟨e, es', h1, h2, h3⟩ := he
    exact put e es' h1 h2 h3 hv.1 (fun w h => by simpa [hf] using h)
  | opt =>
    simp only [hf, Bool.or_eq_true, beq_iff_eq] at he hv
    rcases he with ⟨h1, h2⟩ | ⟨h0, e, es', h1, h2, h3⟩
    · exact skip .absent (by simp [hf, Mode.missing]) h1 h2 (by simp [hf, h1])
    · exact put e es' h1 h2 h3 (hv.1.resolve_left h0) (fun w h => by simp only [hf]; exact Or.inr ⟨h0, h⟩)
  | dflt d =>
    simp only [hf, Bool.or_eq_true, beq_iff_eq] at he hv
    rcases he with ⟨h1, h2⟩ | ⟨h0, e, es', h1, h2, h3⟩
    · exact skip d (by simp [hf, Mode.missing]) h1 h2 (by simp [hf, h1])
    · exact put e es' h1 h2 h3 (hv.1.resolve_left h0) (fun w h => by simp only [hf]; exact Or.inr ⟨h0, h⟩)

mutual
theorem dd : ∀ (t : Ty) (v : Val) (b : Bytes), t.wf = true → t.valid v = true → encodes t v b → DD t v b
  | .prim k a, v, b, hw, hv, he => dd_prim k a v b hw hv he
  | .seq s a cs, v, b, hw, hv, he => dd_seq s a cs v b (ddC cs) hw hv he
  | .of s a t, v, b, hw, hv, he => dd_of s a t v b (dd t) hw hv he
  | .choice a cs, v, b, hw, hv, he => dd_choice a cs v b (ddA cs) hw hv he
  | .bad _, _, _, hw, _, _ => by simp [Ty.wf] at hw
theorem ddC : ∀ (cs : Comps) (vs : Vals) (es : List Bytes), cs.wf = true → cs.valid vs = true →
    components cs vs es → DDC cs vs es
  | .nil, vs, es, _, hv, he => by
    cases vs with
    | cons => simp [Comps.valid] at hv
    | nil =>
      simp only [components] at he; subst he
      exact ⟨[], .nil, trivial, fun _ => ⟨by simp [decComps], by simp⟩, by simp, fun _ ys _ => by simp [decSet], trivial, rfl⟩
  | .cons f t cs, vs, es, hw, hv, he => ddc_cons f t cs vs es (dd t) (ddC cs) hw hv he
theorem ddA : ∀ (cs : Comps) (i : Nat) (v : Val) (b : Bytes), cs.wf = true → cs.validAlt i v = true →
    alternative cs i v b → DDA cs i v b
  | .nil, _, _, _, _, hv, _ => by simp [Comps.validAlt] at hv
  | .cons f t cs, 0, v, b, hw, hv, he => by
    simp only [Comps.wf, Bool.and_eq_true] at hw
    simp only [Comps.validAlt] at hv
    simp only [alternative] at he
    obtain ⟨x, w, h1, h2, h3, h4⟩ := dd t v b hw.1 hv he
    refine ⟨x, w, h1, by simp [Comps.matches, h2], ?_, by simpa [Comps.reorderAlt] using h4⟩
    intro _ k; simp [decAlt, h2, h3]
  | .cons f t cs, i + 1, v, b, hw, hv, he => by
    simp only [Comps.wf, Bool.and_eq_true] at hw
    simp only [Comps.validAlt] at hv
    simp only [alternative] at he
    obtain ⟨x, w, h1, h2, h3, h4⟩ := ddA cs i v b hw.2 hv he
    refine ⟨x, w, h1, by simp [Comps.matches, h2], ?_, by simpa [Comps.reorderAlt] using h4⟩
    intro hp k
    simp only [Comps.pairOk, Bool.and_eq_true] at hp
    have := Ty.disjointAll_matches' t x cs hp.1 h2
    simp [decAlt, this, h3 hp.2 (k + 1)]
    omega
end

end Asn1
end Verif
