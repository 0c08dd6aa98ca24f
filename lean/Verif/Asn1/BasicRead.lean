import Verif.Asn1.BerElt

/-! # The BER decoder reads everything `Verif/Spec/Basic.lean` says, laxities that make the reading ambiguous excluded -/

namespace Verif
namespace Asn1

open Der

theorem unwrapE_has : ∀ (us : List Tag) (x z : Elt), unwrapE us x = some z → ∃ u, us.head? = some u ∧ x.tlv.has u = true
  | [], _, _, h => by simp [unwrapE] at h
  | [t], x, z, h => by
    simp only [unwrapE] at h
    split at h
    · exact ⟨t, rfl, by assumption⟩
    · simp at h
  | t :: t' :: ts, x, z, h => by
    simp only [unwrapE] at h
    split at h
    · rename_i hh
      simp only [Bool.and_eq_true] at hh
      exact ⟨t, rfl, hh.1.1⟩
    · simp at h

theorem aroundE_of : ∀ (ts us : List Tag) (e b : Bytes) (y z : Elt), us ≠ [] → IsElt e y → unwrapE us y = some z → Basic.Around ts e b →
    ∃ x, IsElt b x ∧ unwrapE (ts.reverse ++ us) x = some z
  | [], us, e, b, y, z, _, hy, hz, h => by
    simp only [Basic.Around] at h
    subst h
    exact ⟨y, hy, hz⟩
  | t :: ts, us, e, b, y, z, hu, hy, hz, ⟨ht, h⟩ => by
    have key : ∃ x e', IsElt e' x ∧ x.tlv.cls = t.cls ∧ x.tlv.num = t.num ∧ x.tlv.constructed = true ∧ x.inner = some y ∧
        Basic.Around ts e' b := by
      rcases h with ⟨junk, e', he', h⟩ | ⟨e', he', h⟩
      · have hx := isElt_of_isTLV (element_of _ _ _ _ _ he')
        exact ⟨_, e', hx, rfl, rfl, rfl, inner_definite rfl rfl hy, h⟩
      · have hx := element_isElt t.cls t.num true true e e' he'
        exact ⟨_, e', hx, rfl, rfl, rfl, inner_indefinite rfl rfl hy, h⟩
    obtain ⟨x, e', hx, h1, h2, h3, h4, h5⟩ := key
    have := aroundE_of ts (t :: us) e' b x z (by simp) hx (by
      cases us with
      | nil => exact absurd rfl hu
      | cons u us =>
        have hc : (x.tlv.has t && x.tlv.constructed && x.tlv.cls != .universal) = true := by
          simp [TLV.has, h1, h2, h3, ht]
        simp only [unwrapE, hc, if_true, h4]
        exact hz) h5
    simpa using this

theorem taggedE_of (k ind : Bool) (ts : TagSet) (c b : Bytes) (h : Basic.Tagged k ind ts c b) :
    ∃ x y, IsElt b x ∧ unwrapE ts.reverse x = some y ∧ y.tlv.constructed = k ∧ y.indef = ind ∧ y.tlv.content = c ∧
      (∀ l, ts.getLast? = some l → x.tlv.has l = true) ∧ ts ≠ [] := by
  cases ts with
  | nil => simp [Basic.Tagged] at h
  | cons t ts =>
    obtain ⟨e, he, ha⟩ := h
    have hy := element_isElt _ _ _ _ _ _ he
    obtain ⟨x, hx, hu⟩ := aroundE_of ts [t] e b _ ⟨⟨t.cls, k, t.num, c, e⟩, ind⟩ (by simp) hy (by simp [unwrapE, TLV.has]) ha
    refine ⟨x, _, hx, by simpa using hu, rfl, rfl, rfl, ?_, by simp⟩
    intro l hl
    obtain ⟨u, h1, h2⟩ := unwrapE_has _ _ _ hu
    have : (ts.reverse ++ [t]).head? = (t :: ts).getLast? := by
      rw [← List.reverse_cons, List.head?_reverse]
    rw [this, hl] at h1
    simp only [Option.some.injEq] at h1
    rw [h1]; exact h2

/-! ## Contents -/

theorem contents_plain (k : Prim) (v : Val) (c : Bytes) (hk : k ≠ .boolean) : Basic.Contents k v c ↔ Ber.Contents k v c := by
  cases k <;> first | exact absurd rfl hk | (cases v <;> rfl)

theorem bdecPrim_plain (k : Prim) (c : Bytes) (hk : k ≠ .boolean) : bdecPrim k c = decPrim k c := by
  cases k <;> first | exact absurd rfl hk | rfl

theorem bdecPrim_of (k : Prim) (v : Val) (c : Bytes) (h : Basic.Contents k v c) : bdecPrim k c = some v := by
  by_cases hk : k = .boolean
  · subst hk
    cases v <;> simp only [Basic.Contents] at h
    rcases h with ⟨rfl, h⟩ | ⟨rfl, h⟩
    · rw [twos_decInt] at h; simp [bdecPrim, h]
    · rw [twos_decInt] at h; simp [bdecPrim, h]
  · rw [bdecPrim_plain k c hk]
    exact decPrim_of k v c ((contents_plain k v c hk).1 h)

theorem octets_pieces : ∀ (ps es : List Bytes), each2 (fun p e => Ber.Element .universal 4 false p e) ps es →
    ∃ xs, all2 IsElt es xs ∧ xs.all (·.piece 4) = true ∧ xs.flatMap (·.tlv.content) = ps.flatten
  | [], [], _ => ⟨[], trivial, rfl, rfl⟩
  | p :: ps, e :: es, ⟨h1, h2⟩ => by
    obtain ⟨xs, g1, g2, g3⟩ := octets_pieces ps es h2
    have hx := isElt_of_isTLV (element_of _ _ _ _ _ h1)
    refine ⟨_ :: xs, ⟨hx, g1⟩, ?_, ?_⟩
    · simp only [List.all_cons, g2, Bool.and_true]
      simp [Elt.piece, TLV.has]
    · simp only [List.flatMap_cons, g3, List.flatten_cons]
  | [], _ :: _, h => h.elim
  | _ :: _, [], h => h.elim

theorem bits_pieces : ∀ (ps : List (List Bool)) (es : List Bytes),
    each2 (fun p e => ∃ c, Ber.Contents .bitString (.bits p) c ∧ Ber.Element .universal 3 false c e) ps es →
    ∃ xs, all2 IsElt es xs ∧ xs.all (·.piece 3) = true ∧ mapOpt (fun x : Elt => decBits x.tlv.content) xs = some ps
  | [], [], _ => ⟨[], trivial, rfl, rfl⟩
  | p :: ps, e :: es, ⟨⟨c, h0, h1⟩, h2⟩ => by
    obtain ⟨xs, g1, g2, g3⟩ := bits_pieces ps es h2
    have hx := isElt_of_isTLV (element_of _ _ _ _ _ h1)
    have hd := decPrim_of _ _ _ h0
    simp only [decPrim, Option.map_eq_some_iff, Val.bits.injEq, exists_eq_right] at hd
    refine ⟨_ :: xs, ⟨hx, g1⟩, ?_, ?_⟩
    · simp only [List.all_cons, g2, Bool.and_true]
      simp [Elt.piece, TLV.has]
    · simp only [mapOpt, hd, g3]
  | [], _ :: _, h => h.elim
  | _ :: _, [], h => h.elim

theorem joined_of (ind : Bool) (k : Prim) (v : Val) (es : List Bytes) (h : Basic.Pieces ind k v es) :
    (elts es.flatten).bind (joined k ind) = some v := by
  cases k <;> cases v <;> simp only [Basic.Pieces] at h
  · rename_i b
    obtain ⟨h0, ps, h1, rfl⟩ := h
    obtain ⟨xs, g1, g2, g3⟩ := bits_pieces ps es h1
    rw [elts_of es xs g1]
    have : (ind || !xs.isEmpty) = true := by
      rcases h0 with rfl | h0
      · rfl
      · cases xs with
        | nil => cases es with
          | nil => exact absurd rfl h0
          | cons => exact g1.elim
        | cons => simp
    simp only [Option.bind_some, joined, g2, this, Bool.and_self, if_true, g3, Option.map_some]
  · rename_i b
    obtain ⟨ps, h1, rfl⟩ := h
    obtain ⟨xs, g1, g2, g3⟩ := octets_pieces ps es h1
    rw [elts_of es xs g1]
    simp only [Option.bind_some, joined, g2, if_true, g3]

/-! ## Types -/

def FR (t : Ty) (v : Val) (b : Bytes) : Prop := ∃ x, IsElt b x ∧ t.matches x.tlv = true ∧ bdecT t x = some v

def FRC (cs : Comps) (vs : Vals) (es : List Bytes) : Prop :=
  ∃ xs, all2 IsElt es xs ∧
    (cs.seqOk = true → bdecComps cs xs = some vs ∧ ∀ x : Elt, xs.head? = some x → cs.windowMatches x.tlv = true)

/-- The element is for component `i`. -/
def FoundE : Comps → Nat → Val → Elt → Prop
  | .cons _ t _, 0, v, x => t.matches x.tlv = true ∧ bdecT t x = some v
  | .cons _ _ cs, i + 1, v, x => FoundE cs i v x
  | .nil, _, _, _ => False

theorem FoundE.matches : ∀ (cs : Comps) (i : Nat) (v : Val) (x : Elt), FoundE cs i v x → cs.matches x.tlv = true
  | .cons _ t _, 0, v, x, h => by simp [Comps.matches, h.1]
  | .cons _ _ cs, i + 1, v, x, h => by simp [Comps.matches, FoundE.matches cs i v x h]
  | .nil, _, _, _, h => h.elim

theorem FoundE.alt : ∀ (cs : Comps) (i : Nat) (v : Val) (x : Elt), cs.pairOk = true → FoundE cs i v x →
    ∀ k, bdecAlt cs k x = some (.alt (k + i) v)
  | .cons _ t _, 0, v, x, _, h, k => by simp [bdecAlt, h.1, h.2]
  | .cons _ t cs, i + 1, v, x, hp, h, k => by
    simp only [Comps.pairOk, Bool.and_eq_true] at hp
    have hx : t.matches x.tlv = false := Ty.disjointAll_matches' t x.tlv cs hp.1 (FoundE.matches cs i v x h)
    have := FoundE.alt cs i v x hp.2 h (k + 1)
    simp only [bdecAlt, hx, Bool.false_eq_true, if_false, this]
    rw [Nat.add_assoc, Nat.add_comm 1 i]
  | .nil, _, _, _, _, h, _ => h.elim

theorem foundE_split (f : Field) (t : Ty) (cs : Comps) (hd : t.disjointAll cs = true) : ∀ (hs : List (Nat × Val)) (xs : List Elt),
    each2 (fun h x => FoundE (.cons f t cs) h.1 h.2 x) hs xs →
    mapOpt (bdecT t) (xs.filter (fun x => t.matches x.tlv)) = some (Ber.first hs) ∧
      each2 (fun h x => FoundE cs h.1 h.2 x) (Ber.others hs) (xs.filter (fun x => cs.matches x.tlv))
  | [], [], _ => ⟨rfl, trivial⟩
  | (0, v) :: hs, x :: xs, ⟨h1, h2⟩ => by
    obtain ⟨i1, i2⟩ := foundE_split f t cs hd hs xs h2
    have hx := Ty.disjointAll_matches t x.tlv cs hd h1.1
    rw [List.filter_cons_of_pos (p := fun x : Elt => t.matches x.tlv) h1.1, List.filter_cons_of_neg (by simp [hx])]
    exact ⟨by simp only [mapOpt, h1.2, i1, Ber.first], i2⟩
  | (i + 1, v) :: hs, x :: xs, ⟨h1, h2⟩ => by
    obtain ⟨i1, i2⟩ := foundE_split f t cs hd hs xs h2
    have hm := FoundE.matches cs i v x h1
    have hx := Ty.disjointAll_matches' t x.tlv cs hd hm
    rw [List.filter_cons_of_neg (by simp [hx]), List.filter_cons_of_pos (p := fun x : Elt => cs.matches x.tlv) hm]
    exact ⟨i1, h1, i2⟩
  | [], _ :: _, h => h.elim
  | _ :: _, [], h => h.elim

/-- Elements that are for none of the components do not matter. -/
theorem bdecSet_filter (p : Elt → Bool) : ∀ (cs : Comps) (xs : List Elt), (∀ x, cs.matches x.tlv = true → p x = true) →
    bdecSet cs (xs.filter p) = bdecSet cs xs
  | .nil, _, _ => by simp [bdecSet]
  | .cons f t cs, xs, h => by
    have h1 : (xs.filter p).filter (fun x => t.matches x.tlv) = xs.filter (fun x => t.matches x.tlv) := by
      rw [List.filter_filter]
      apply List.filter_congr
      intro x _
      cases ht : t.matches x.tlv with
      | false => simp
      | true => simp [h x (by simp [Comps.matches, ht])]
    simp only [bdecSet, h1, bdecSet_filter p cs xs (fun x hx => h x (by simp [Comps.matches, hx]))]

theorem bdecSet_of : ∀ (cs : Comps) (vs : Vals) (hs : List (Nat × Val)) (xs : List Elt), cs.pairOk = true →
    each2 (fun h x => FoundE cs h.1 h.2 x) hs xs → Ber.settled cs vs hs → bdecSet cs xs = some vs
  | .nil, .nil, _, _, _, _, _ => by simp [bdecSet]
  | .nil, .cons _ _, _, _, _, _, h => h.elim
  | .cons _ _ _, .nil, _, _, _, _, h => h.elim
  | .cons f t cs, .cons v vs, hs, xs, hp, he, h => by
    simp only [Comps.pairOk, Bool.and_eq_true] at hp
    obtain ⟨h1, h2⟩ := foundE_split f t cs hp.1 hs xs he
    simp only [Ber.settled] at h
    have ih := bdecSet_of cs vs _ _ hp.2 h2 h.2
    rw [bdecSet_filter (fun x => cs.matches x.tlv) cs xs (fun _ h => h)] at ih
    simp only [bdecSet, h1, ih]
    have h3 := h.1
    split at h3
    · rename_i w hw
      simp only [hw, h3]
    · rename_i hw
      have hmis : f.mode.missing = some v := by
        cases hf : f.mode <;> simp_all [Mode.missing]
      simp only [hw, hmis]

def FRA (cs : Comps) (i : Nat) (v : Val) (b : Bytes) : Prop := ∃ x, IsElt b x ∧ FoundE cs i v x

theorem fr_found (cs : Comps) (ih : ∀ i v b, Basic.alternative false cs i v b → FRA cs i v b) : ∀ (hs : List (Nat × Val)) (es : List Bytes),
    each2 (fun h e => Basic.alternative false cs h.1 h.2 e) hs es →
    ∃ xs, all2 IsElt es xs ∧ each2 (fun h x => FoundE cs h.1 h.2 x) hs xs
  | [], [], _ => ⟨[], trivial, trivial⟩
  | h :: hs, e :: es, ⟨h1, h2⟩ => by
    obtain ⟨x, g1, g2⟩ := ih h.1 h.2 e h1
    obtain ⟨xs, g3, g4⟩ := fr_found cs ih hs es h2
    exact ⟨x :: xs, ⟨g1, g3⟩, g2, g4⟩
  | [], _ :: _, h => h.elim
  | _ :: _, [], h => h.elim

theorem foundE_all (cs : Comps) : ∀ (hs : List (Nat × Val)) (xs : List Elt), each2 (fun h x => FoundE cs h.1 h.2 x) hs xs →
    xs.all (fun x => cs.matches x.tlv) = true
  | [], [], _ => rfl
  | h :: hs, x :: xs, ⟨h1, h2⟩ => by simp [FoundE.matches cs h.1 h.2 x h1, -List.all_eq_true, foundE_all cs hs xs h2]
  | [], _ :: _, h => h.elim
  | _ :: _, [], h => h.elim

theorem fr_prim (k : Prim) (a : Attrs) (v : Val) (b : Bytes) (hw : (Ty.prim k a).wf = true)
    (he : Basic.reads false (.prim k a) v b) : FR (.prim k a) v b := by
  by_cases hk : k = .any
  · subst hk
    simp only [Basic.reads] at he
    obtain ⟨x, h1, h2, h3⟩ := br_prim .any a v b hw he
    exact ⟨⟨x, false⟩, isElt_of_isTLV h1, h2, by simpa [bdecT, bdecPrimT, decT] using h3⟩
  · have hr : ((∃ c, Basic.Contents k v c ∧ Basic.Tagged false false a.tags c b) ∨
        (∃ es form ind, (form = true ∨ ind = true) ∧ Basic.Pieces ind k v es ∧ Basic.Tagged form ind a.tags es.flatten b)) ∧
        a.spec.ok (.simple v) = true := by
      cases k <;> first | exact absurd rfl hk | exact he
    obtain ⟨hr, hok⟩ := hr
    have hkb : (k == Prim.any) = false := by simpa using hk
    rcases hr with ⟨c, hc, ht⟩ | ⟨es, form, ind, hfi, hc, ht⟩
    · obtain ⟨x, y, e1, e2, e3, e4, e5, e6, e7⟩ := taggedE_of _ _ _ _ _ ht
      refine ⟨x, e1, ?_, ?_⟩
      · simp only [Ty.matches]
        exact last_matches a.tags x.tlv _ e7 e6
      · simp [bdecT, bdecPrimT, hkb, e2, e3, e4, e5, bdecPrim_of k v c hc, hok]
    · obtain ⟨x, y, e1, e2, e3, e4, e5, e6, e7⟩ := taggedE_of _ _ _ _ _ ht
      refine ⟨x, e1, ?_, ?_⟩
      · simp only [Ty.matches]
        exact last_matches a.tags x.tlv _ e7 e6
      · have hfi' : (ind || form) = true := by rcases hfi with rfl | rfl <;> simp
        simp only [bdecT, bdecPrimT, hkb, e2, e3, e4, e5, hfi', Bool.false_eq_true, if_false, if_true, joined_of ind k v es hc, hok]

theorem fr_seq (s : Bool) (a : Attrs) (cs : Comps) (v : Val) (b : Bytes)
    (ih : ∀ vs es, cs.wf = true → Basic.components false cs vs es → FRC cs vs es)
    (iha : ∀ i v b, cs.wf = true → Basic.alternative false cs i v b → FRA cs i v b)
    (hw : (Ty.seq s a cs).wf = true) (he : Basic.reads false (.seq s a cs) v b) : FR (.seq s a cs) v b := by
  cases v <;> simp only [Basic.reads] at he
  rename_i vs
  obtain ⟨⟨es, ind, ht, hc⟩, hok⟩ := he
  simp only [Ty.wf, Bool.and_eq_true] at hw
  obtain ⟨⟨⟨_, hcw⟩, hdis⟩, _⟩ := hw
  rw [closed_noOpen, present_names] at hok
  have hok' : (!cs.noOpen || a.spec.ok (.mapping (presentNames cs vs).length (presentNames cs vs))) = true := by
    cases hn : cs.noOpen
    · rfl
    · simp [hok hn]
  obtain ⟨x, y, e1, e2, e3, _, e4, e5, e6⟩ := taggedE_of _ _ _ _ _ ht
  refine ⟨x, e1, by simp only [Ty.matches]; exact last_matches a.tags x.tlv _ e6 e5, ?_⟩
  have key : ∃ xs, elts es.flatten = some xs ∧
      (if s then (if xs.all (fun x => cs.matches x.tlv) then bdecSet cs xs else none) else bdecComps cs xs) = some vs := by
    cases s with
    | false =>
      simp only [Bool.false_eq_true, if_false] at hc hdis ⊢
      obtain ⟨xs, h1, h2⟩ := ih vs es hcw hc
      exact ⟨xs, elts_of _ _ h1, (h2 hdis).1⟩
    | true =>
      simp only [if_true, Bool.and_eq_true] at hc hdis ⊢
      obtain ⟨hs, hc1, hc2⟩ := hc
      obtain ⟨xs, h1, h2⟩ := fr_found cs (fun i v b => iha i v b hcw) hs es hc1
      exact ⟨xs, elts_of _ _ h1, by rw [if_pos (foundE_all cs hs xs h2)]; exact bdecSet_of cs vs hs xs hdis.1 h2 hc2⟩
  obtain ⟨xs, h1, h2⟩ := key
  simp only [bdecT, innerElts, e2, e3, e4, h1, if_true]
  rw [h2]
  simp only [hok', if_true]

theorem fr_each (t : Ty) (ih : ∀ v b, Basic.reads false t v b → FR t v b) : ∀ (vs : List Val) (es : List Bytes),
    each2 (Basic.reads false t) vs es → ∃ xs, all2 IsElt es xs ∧ mapOpt (bdecT t) xs = some vs
  | [], [], _ => ⟨[], trivial, rfl⟩
  | v :: vs, e :: es, ⟨h1, h2⟩ => by
    obtain ⟨x, g1, _, g3⟩ := ih v e h1
    obtain ⟨xs, g4, g5⟩ := fr_each t ih vs es h2
    exact ⟨x :: xs, ⟨g1, g4⟩, by simp only [mapOpt, g3, g5]⟩
  | [], _ :: _, h => h.elim
  | _ :: _, [], h => h.elim

theorem fr_of (s : Bool) (a : Attrs) (t : Ty) (v : Val) (b : Bytes) (ih : ∀ v b, t.wf = true → Basic.reads false t v b → FR t v b)
    (hw : (Ty.of s a t).wf = true) (he : Basic.reads false (.of s a t) v b) : FR (.of s a t) v b := by
  cases v <;> simp only [Basic.reads] at he
  rename_i vs
  obtain ⟨es, ind, ht, hc⟩ := he
  simp only [Ty.wf, Bool.and_eq_true] at hw
  obtain ⟨x, y, e1, e2, e3, _, e4, e5, e6⟩ := taggedE_of _ _ _ _ _ ht
  refine ⟨x, e1, by simp only [Ty.matches]; exact last_matches a.tags x.tlv _ e6 e5, ?_⟩
  obtain ⟨xs, h1, h2⟩ := fr_each t (fun v b => ih v b hw.2) _ _ hc
  simp only [bdecT, innerElts, e2, e3, e4, elts_of _ _ h1, if_true, h2, Vals.ofList_toList]

theorem fr_choice (a : Attrs) (cs : Comps) (v : Val) (b : Bytes) (ih : ∀ i v b, cs.wf = true → Basic.alternative false cs i v b → FRA cs i v b)
    (hw : (Ty.choice a cs).wf = true) (he : Basic.reads false (.choice a cs) v b) : FR (.choice a cs) v b := by
  cases v <;> simp only [Basic.reads] at he
  rename_i i v
  simp only [Ty.wf, Bool.and_eq_true] at hw
  by_cases hts : a.tags = []
  · rw [if_pos hts] at he
    obtain ⟨x, h1, h2⟩ := ih i v b hw.1.2 he
    refine ⟨x, h1, by simp [Ty.matches, hts, FoundE.matches _ _ _ _ h2], ?_⟩
    have := FoundE.alt _ _ _ _ hw.2 h2 0
    rw [Nat.zero_add] at this
    simp only [bdecT, hts, this]
  · rw [if_neg hts] at he
    obtain ⟨k, c, hc, ht⟩ := he
    obtain ⟨z, h1, h2⟩ := ih i v c hw.1.2 hc
    have hd := FoundE.alt _ _ _ _ hw.2 h2 0
    rw [Nat.zero_add] at hd
    have key : ∃ x y, IsElt b x ∧ unwrapE a.tags.reverse x = some y ∧ y.inner = some z ∧
        (∀ l, a.tags.getLast? = some l → x.tlv.has l = true) ∧ a.tags ≠ [] := by
      rcases ht with ⟨junk, ht⟩ | ht
      · obtain ⟨x, y, e1, e2, _, e3, e4, e5, e6⟩ := taggedE_of _ _ _ _ _ ht
        exact ⟨x, y, e1, e2, inner_definite e3 e4 h1, e5, e6⟩
      · obtain ⟨x, y, e1, e2, _, e3, e4, e5, e6⟩ := taggedE_of _ _ _ _ _ ht
        exact ⟨x, y, e1, e2, inner_indefinite e3 e4 h1, e5, e6⟩
    obtain ⟨x, y, e1, e2, e4, e5, e6⟩ := key
    refine ⟨x, e1, by simp only [Ty.matches]; exact last_matches a.tags x.tlv _ e6 e5, ?_⟩
    simp only [bdecT]
    split
    · rename_i h0; exact absurd h0 hts
    · simp only [e2, e4, hd]

theorem frc_cons (f : Field) (t : Ty) (cs : Comps) (vs : Vals) (es : List Bytes)
    (iht : ∀ v b, t.wf = true → Basic.reads false t v b → FR t v b)
    (ihc : ∀ vs es, cs.wf = true → Basic.components false cs vs es → FRC cs vs es)
    (hw : (Comps.cons f t cs).wf = true) (he : Basic.components false (.cons f t cs) vs es) : FRC (.cons f t cs) vs es := by
  cases vs with
  | nil => simp [Basic.components] at he
  | cons v vs =>
  simp only [Comps.wf, Bool.and_eq_true] at hw
  simp only [Basic.components] at he
  rcases he with ⟨e, es', rfl, h1, h2⟩ | ⟨h1, h2⟩
  · obtain ⟨xs, k1, k2⟩ := ihc vs es' hw.2 h2
    obtain ⟨x, g1, g2, g3⟩ := iht v e hw.1 h1
    refine ⟨x :: xs, ⟨g1, k1⟩, ?_⟩
    intro hs
    simp only [Comps.seqOk, Bool.and_eq_true] at hs
    refine ⟨by simp [bdecComps, g2, g3, (k2 hs.2).1], ?_⟩
    intro y hy
    simp only [List.head?_cons, Option.some.injEq] at hy; subst hy
    simp [Comps.windowMatches, g2]
  · have hmis : f.mode.missing = some v := by
      cases hf : f.mode <;> simp_all [Mode.missing]
    have hreq : f.mode.isReq = false := by
      cases hf : f.mode <;> simp_all [Mode.isReq]
    obtain ⟨xs, k1, k2⟩ := ihc vs es hw.2 h1
    refine ⟨xs, k1, ?_⟩
    intro hs
    simp only [Comps.seqOk, hreq, Bool.false_or, Bool.and_eq_true] at hs
    obtain ⟨g1, g2⟩ := k2 hs.2
    cases xs with
    | nil => exact ⟨by simp [bdecComps, hmis, g1], by simp⟩
    | cons x xs =>
      have gw := g2 x rfl
      have gm := Ty.disjointWindow_matches t x.tlv cs hs.1 gw
      refine ⟨?_, ?_⟩
      · simp [bdecComps, hreq, gm, gw, hmis, g1]
      · intro y hy
        simp only [List.head?_cons, Option.some.injEq] at hy; subst hy
        simp [Comps.windowMatches, hreq, gw]

mutual
theorem fr : ∀ (t : Ty) (v : Val) (b : Bytes), t.wf = true → Basic.reads false t v b → FR t v b
  | .prim k a, v, b, hw, he => fr_prim k a v b hw he
  | .seq s a cs, v, b, hw, he => fr_seq s a cs v b (frC cs) (frA cs) hw he
  | .of s a t, v, b, hw, he => fr_of s a t v b (fr t) hw he
  | .choice a cs, v, b, hw, he => fr_choice a cs v b (frA cs) hw he
  | .bad _, _, _, hw, _ => by simp [Ty.wf] at hw
theorem frC : ∀ (cs : Comps) (vs : Vals) (es : List Bytes), cs.wf = true → Basic.components false cs vs es → FRC cs vs es
  | .nil, vs, es, _, he => by
    cases vs with
    | cons => simp [Basic.components] at he
    | nil =>
      simp only [Basic.components] at he; subst he
      exact ⟨[], trivial, fun _ => ⟨by simp [bdecComps], by simp⟩⟩
  | .cons f t cs, vs, es, hw, he => frc_cons f t cs vs es (fr t) (frC cs) hw he
theorem frA : ∀ (cs : Comps) (i : Nat) (v : Val) (b : Bytes), cs.wf = true → Basic.alternative false cs i v b → FRA cs i v b
  | .nil, _, _, _, _, he => by simp [Basic.alternative] at he
  | .cons f t cs, 0, v, b, hw, he => by
    simp only [Comps.wf, Bool.and_eq_true] at hw
    simp only [Basic.alternative] at he
    obtain ⟨x, h1, h2, h3⟩ := fr t v b hw.1 he
    exact ⟨x, h1, h2, h3⟩
  | .cons f t cs, i + 1, v, b, hw, he => by
    simp only [Comps.wf, Bool.and_eq_true] at hw
    simp only [Basic.alternative] at he
    exact frA cs i v b hw.2 he
end

theorem basic_decode (t : Ty) (v : Val) (p rest : Bytes) (hw : t.wf = true) (h : Basic.reads false t v p) :
    berDecode t (p ++ rest) = some (v, rest) := by
  obtain ⟨x, h1, _, h3⟩ := fr t v p hw h
  simp only [berDecode, isElt_read h1 rest, h3]

end Asn1
end Verif
