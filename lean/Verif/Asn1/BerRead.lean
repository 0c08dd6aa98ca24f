import Verif.Asn1.Ber

/-! # The decoder reads everything `Verif/Spec/Ber.lean` says, laxities that make the reading ambiguous excluded -/

namespace Verif
namespace Asn1

open Der

theorem readB128_of (lo : UInt8) (hlo : lo.toNat < 128) (rest : Bytes) : ∀ (hi : Bytes) (acc : Nat), (∀ x ∈ hi, 128 ≤ x.toNat) →
    readB128 (hi ++ lo :: rest) acc = some ((hi ++ [lo]).foldl (fun n x => n * 128 + x.toNat % 128) acc, rest)
  | [], acc, _ => by
    simp only [List.nil_append, readB128, hlo, if_true, List.foldl_cons, List.foldl_nil]
    rw [Nat.mod_eq_of_lt hlo]
  | x :: hi, acc, h => by
    have hx := h x (List.mem_cons_self ..)
    have hx' : ¬ x.toNat < 128 := by omega
    have := readB128_of lo hlo rest hi (acc * 128 + (x.toNat - 128)) (fun y hy => h y (List.mem_cons_of_mem _ hy))
    simp only [List.cons_append, readB128, hx', if_false, List.foldl_cons]
    have e : x.toNat % 128 = x.toNat - 128 := by
      have := x.toNat_lt
      omega
    rw [this, e]

theorem readTag_of (c : Cls) (k : Bool) (n : Nat) (i rest : Bytes) (h : Ber.Identifier c k n i) :
    readTag (i ++ rest) = some (c, k, n, rest) ∧ i ≠ [] := by
  cases h with
  | low hn =>
    have := readTag_encTag c k n rest
    simp only [encTag] at this
    rw [if_pos (by omega)] at this
    refine ⟨?_, by simp⟩
    rw [classBits_eq]
    exact this
  | high g hg =>
    obtain ⟨hi, lo, rfl, h1, h2, h3⟩ := hg
    refine ⟨?_, by simp⟩
    have hr := readB128_of lo h2 rest hi 0 h1
    have hb : ∀ b : Nat, b = classBits c + (if k = true then 32 else 0) + 31 → b < 256 ∧ b % 32 = 31 ∧
        Cls.ofBits (b / 64) = c ∧ (b / 32 % 2 == 1) = k := by
      intro b hb
      subst hb
      cases c <;> cases k <;> decide
    obtain ⟨g0, g1, g2, g3⟩ := hb _ rfl
    have hx := toNat_ofNat _ g0
    simp only [List.cons_append, readTag, List.append_assoc, List.nil_append]
    rw [hx, g1, g2, g3]
    simp only [hr]
    have h3' : (hi ++ [lo]).foldl (fun n x => n * 128 + x.toNat % 128) 0 = n := h3
    rw [h3']
    rfl

theorem readLen_of (n : Nat) (l rest : Bytes) (h : Ber.Length n l) : readLen (l ++ rest) = some (n, rest) := by
  cases h with
  | short hn =>
    have hx := toNat_ofNat n (by omega)
    simp only [List.cons_append, List.nil_append, readLen]
    rw [hx, if_pos (by omega)]
  | long s h0 h1 h2 =>
    have hs : 0 < s.length := List.length_pos_iff.2 h0
    have hx := toNat_ofNat (128 + s.length) (by omega)
    simp only [List.cons_append, readLen]
    rw [hx, if_neg (by omega), if_neg (by omega), if_neg (by simp), ← h2, number_beNat]
    have e : 128 + s.length - 128 = s.length := by omega
    rw [e]
    simp

theorem element_of (c : Cls) (n : Nat) (k : Bool) (contents b : Bytes) (h : Ber.Element c n k contents b) :
    IsTLV b ⟨c, k, n, contents, b⟩ := by
  obtain ⟨i, l, hi, hl, rfl⟩ := h
  have hne : i ≠ [] := (readTag_of c k n i [] hi).2
  refine ⟨by simp [hne], fun rest => ?_⟩
  unfold readTLV
  have h1 := (readTag_of c k n i (l ++ contents ++ rest) hi).1
  have h2 := readLen_of _ l (contents ++ rest) hl
  simp only [List.append_assoc] at h1 h2 ⊢
  rw [h1]
  simp only [h2]
  rw [if_neg (by simp)]
  simp only [Option.some.injEq, Prod.mk.injEq, TLV.mk.injEq]
  refine ⟨⟨trivial, trivial, trivial, by simp, ?_⟩, by simp⟩
  have e : (i ++ (l ++ (contents ++ rest))).length - ((contents ++ rest).length - contents.length) = (i ++ (l ++ contents)).length := by
    simp; omega
  rw [e]
  have e2 : i ++ (l ++ (contents ++ rest)) = (i ++ (l ++ contents)) ++ rest := by simp
  rw [e2, List.take_left]

theorem around_of : ∀ (ts us : List Tag) (e b : Bytes) (y z : TLV), us ≠ [] → IsTLV e y → unwrap us y = some z → Ber.Around ts e b →
    ∃ x, IsTLV b x ∧ unwrap (ts.reverse ++ us) x = some z
  | [], us, e, b, y, z, _, hy, hz, h => by
    simp only [Ber.Around] at h
    subst h
    exact ⟨y, hy, hz⟩
  | t :: ts, us, e, b, y, z, hu, hy, hz, ⟨ht, junk, e', he', h⟩ => by
    have hx := element_of _ _ _ _ _ he'
    have := around_of ts (t :: us) e' b ⟨t.cls, true, t.num, e ++ junk, e'⟩ z (by simp) hx (by
      cases us with
      | nil => exact absurd rfl hu
      | cons u us =>
        simp only [unwrap, TLV.has, beq_self_eq_true, Bool.and_self, Bool.true_and, bne_iff_ne, ht, ne_eq,
          not_false_eq_true, if_true]
        rw [hy.2 junk]
        exact hz) h
    simpa using this

theorem tagged_of (k : Bool) (ts : TagSet) (c b : Bytes) (h : Ber.Tagged k ts c b) :
    ∃ x y, IsTLV b x ∧ unwrap ts.reverse x = some y ∧ y.constructed = k ∧ y.content = c ∧
      (∀ l, ts.getLast? = some l → x.has l = true) ∧ ts ≠ [] := by
  cases ts with
  | nil => simp [Ber.Tagged] at h
  | cons t ts =>
    obtain ⟨e, he, ha⟩ := h
    have hy := element_of _ _ _ _ _ he
    obtain ⟨x, hx, hu⟩ := around_of ts [t] e b _ ⟨t.cls, k, t.num, c, e⟩ (by simp) hy (by simp [unwrap, TLV.has]) ha
    refine ⟨x, _, hx, by simpa using hu, rfl, rfl, ?_, by simp⟩
    intro l hl
    obtain ⟨u, h1, h2⟩ := unwrap_has _ _ _ hu
    have : (ts.reverse ++ [t]).head? = (t :: ts).getLast? := by
      rw [← List.reverse_cons, List.head?_reverse]
    rw [this, hl] at h1
    simp only [Option.some.injEq] at h1
    rw [h1]; exact h2

theorem last_matches (ts : TagSet) (x : TLV) (d : Bool) (hne : ts ≠ []) (h : ∀ l, ts.getLast? = some l → x.has l = true) :
    (match ts.getLast? with
    | some t => x.has t
    | none => d) = true := by
  cases hl : ts.getLast? with
  | none => simp at hl; exact absurd hl hne
  | some l => exact h l hl

/-! ## Contents -/

theorem character_head (k : CharKind) (c : Char) (p : Bytes) (rest : Bytes) (h : Ber.Character k c p) :
    p ≠ [] ∧ (match k with
      | .utf8 => utf8Head (p ++ rest) = some (c, rest)
      | .utf16be => utf16Head (p ++ rest) = some (c, rest)
      | .utf32be => utf32Head (p ++ rest) = some (c, rest)
      | _ => True) := by
  cases k with
  | ascii => obtain ⟨x, rfl, _⟩ := h; simp
  | latin1 => obtain ⟨x, rfl, _⟩ := h; simp
  | utf8 =>
    simp only [Ber.Character, Der.Character] at h
    subst h
    exact ⟨(utf8Head_char c []).2, (utf8Head_char c rest).1⟩
  | utf16be =>
    rcases h with ⟨x, y, rfl, h⟩ | ⟨x, y, z, w, rfl, h1, h2, h3, h4, h5⟩
    · refine ⟨by simp, ?_⟩
      simp only [List.cons_append, List.nil_append, utf16Head]
      have hc := char_lt c
      rw [h, if_neg (by omega), mkChar_toNat]; rfl
    · refine ⟨by simp, ?_⟩
      simp only [List.cons_append, List.nil_append, utf16Head]
      rw [if_pos ⟨h1, h2⟩, if_pos ⟨h3, h4⟩, ← h5, mkChar_toNat]; rfl
  | utf32be =>
    obtain ⟨x, y, z, w, rfl, h⟩ := h
    refine ⟨by simp, ?_⟩
    simp only [List.cons_append, List.nil_append, utf32Head]
    have : beNat [x, y, z, w] 0 = c.toNat := by rw [← h]; simp [beNat]
    rw [this, mkChar_toNat]; rfl

theorem decChars_of (k : CharKind) (head : Bytes → Option (Char × Bytes))
    (hh : ∀ c p rest, Ber.Character k c p → p ≠ [] ∧ head (p ++ rest) = some (c, rest)) :
    ∀ (s : List Char) (bs : List Bytes) (n : Nat), each2 (Ber.Character k) s bs → bs.flatten.length ≤ n →
      decChars head n bs.flatten = some s
  | [], [], n, _, _ => by cases n <;> rfl
  | c :: s, p :: bs, n, ⟨h1, h2⟩, hn => by
    obtain ⟨g1, g2⟩ := hh c p bs.flatten h1
    simp only [List.flatten_cons] at hn ⊢
    cases p with
    | nil => exact absurd rfl g1
    | cons x p =>
      cases n with
      | zero => simp at hn
      | succ n =>
        simp only [List.cons_append] at g2 ⊢
        simp only [decChars, g2]
        rw [decChars_of k head hh s bs n h2 (by simp at hn ⊢; omega)]
        rfl
  | [], _ :: _, _, h, _ => h.elim
  | _ :: _, [], _, h, _ => h.elim

theorem decAscii_of : ∀ (s : List Char) (bs : List Bytes), each2 (Ber.Character .ascii) s bs → decAscii bs.flatten = some s
  | [], [], _ => rfl
  | c :: s, p :: bs, ⟨⟨x, hp, hx, hc⟩, h2⟩ => by
    subst hp
    simp only [List.flatten_cons, List.cons_append, List.nil_append, decAscii]
    rw [hx, if_pos hc, decAscii_of s bs h2, char_ofNat_toNat]; rfl
  | [], _ :: _, h => h.elim
  | _ :: _, [], h => h.elim

theorem decLatin1_of : ∀ (s : List Char) (bs : List Bytes), each2 (Ber.Character .latin1) s bs → decLatin1 bs.flatten = s
  | [], [], _ => rfl
  | c :: s, p :: bs, ⟨⟨x, hp, hx⟩, h2⟩ => by
    subst hp
    simp only [List.flatten_cons, List.cons_append, List.nil_append, decLatin1]
    rw [hx, decLatin1_of s bs h2, char_ofNat_toNat]
  | [], _ :: _, h => h.elim
  | _ :: _, [], h => h.elim

theorem decStr_of (k : CharKind) (s : List Char) (bs : List Bytes) (h : each2 (Ber.Character k) s bs) : decStr k bs.flatten = some s := by
  cases k with
  | ascii => exact decAscii_of s bs h
  | latin1 => simp only [decStr, decLatin1_of s bs h]
  | utf8 => exact decChars_of .utf8 _ (fun c p rest hc => character_head .utf8 c p rest hc) s bs _ h (Nat.le_refl _)
  | utf16be => exact decChars_of .utf16be _ (fun c p rest hc => character_head .utf16be c p rest hc) s bs _ h (Nat.le_refl _)
  | utf32be => exact decChars_of .utf32be _ (fun c p rest hc => character_head .utf32be c p rest hc) s bs _ h (Nat.le_refl _)

theorem decPrim_of (k : Prim) (v : Val) (c : Bytes) (h : Ber.Contents k v c) : decPrim k c = some v := by
  cases k with
  | boolean =>
    cases v <;> simp [Ber.Contents] at h
    rcases h with ⟨rfl, rfl⟩ | ⟨rfl, rfl⟩ <;> rfl
  | integer =>
    cases v <;> simp [Ber.Contents] at h
    simp only [decPrim, ← twos_decInt, h]
  | enumerated =>
    cases v <;> simp [Ber.Contents] at h
    simp only [decPrim, ← twos_decInt, h]
  | bitString =>
    cases v <;> simp only [Ber.Contents] at h
    rename_i bs
    obtain ⟨u, body, pad, rfl, h1, h2, h3⟩ := h
    have hl : 8 * body.length = bs.length + pad.length := by
      rw [← flatMap_bitsOf_length, h3, List.length_append]
    simp only [decPrim, decBits]
    rw [if_neg (by omega), if_neg (by omega), ← flatMap_bitsOf, h3]
    have : 8 * body.length - u.toNat = bs.length := by omega
    rw [this, List.take_left]; rfl
  | octetString =>
    cases v <;> simp [Ber.Contents] at h
    rw [h]; rfl
  | null =>
    cases v <;> simp [Ber.Contents] at h
    rw [h]; rfl
  | oid =>
    cases v <;> simp only [Ber.Contents] at h
    rename_i l
    match l, h with
    | x :: y :: r, ⟨h1, h2, h3⟩ =>
      have := (oid_iff x y r c).1 ⟨h1, h2, h3⟩
      simp only [decPrim, decOid_encOid _ _ this]; rfl
  | any => cases v <;> simp [Ber.Contents] at h
  | str k =>
    cases v <;> simp only [Ber.Contents] at h
    obtain ⟨bs, h1, rfl⟩ := h
    simp only [decPrim, decStr_of k _ bs h1]; rfl
  | utcTime =>
    cases v <;> simp only [Ber.Contents] at h
    obtain ⟨bs, h1, rfl⟩ := h
    simp only [decPrim, decAscii_of _ bs h1]; rfl
  | generalizedTime =>
    cases v <;> simp only [Ber.Contents] at h
    obtain ⟨bs, h1, rfl⟩ := h
    simp only [decPrim, decAscii_of _ bs h1]; rfl

/-! ## Types -/

def BR (t : Ty) (v : Val) (b : Bytes) : Prop := ∃ x, IsTLV b x ∧ t.matches x = true ∧ decT t x = some v

def BRC (cs : Comps) (vs : Vals) (es : List Bytes) : Prop :=
  ∃ xs, all2 IsTLV es xs ∧
    (cs.seqOk = true → decComps cs xs = some vs ∧ ∀ x, xs.head? = some x → cs.windowMatches x = true)

/-- The element is for component `i`. -/
def Found : Comps → Nat → Val → TLV → Prop
  | .cons _ t _, 0, v, x => t.matches x = true ∧ decT t x = some v
  | .cons _ _ cs, i + 1, v, x => Found cs i v x
  | .nil, _, _, _ => False

theorem Found.matches : ∀ (cs : Comps) (i : Nat) (v : Val) (x : TLV), Found cs i v x → cs.matches x = true
  | .cons _ t _, 0, v, x, h => by simp [Comps.matches, h.1]
  | .cons _ _ cs, i + 1, v, x, h => by simp [Comps.matches, Found.matches cs i v x h]
  | .nil, _, _, _, h => h.elim

theorem Found.alt : ∀ (cs : Comps) (i : Nat) (v : Val) (x : TLV), cs.pairOk = true → Found cs i v x →
    ∀ k, decAlt cs k x = some (.alt (k + i) v)
  | .cons _ t _, 0, v, x, _, h, k => by simp [decAlt, h.1, h.2]
  | .cons _ t cs, i + 1, v, x, hp, h, k => by
    simp only [Comps.pairOk, Bool.and_eq_true] at hp
    have hx : t.matches x = false := Ty.disjointAll_matches' t x cs hp.1 (Found.matches cs i v x h)
    have := Found.alt cs i v x hp.2 h (k + 1)
    simp only [decAlt, hx, Bool.false_eq_true, if_false, this]
    rw [Nat.add_assoc, Nat.add_comm 1 i]
  | .nil, _, _, _, _, h, _ => h.elim

theorem found_split (f : Field) (t : Ty) (cs : Comps) (hd : t.disjointAll cs = true) : ∀ (hs : List (Nat × Val)) (xs : List TLV),
    each2 (fun h x => Found (.cons f t cs) h.1 h.2 x) hs xs →
    mapOpt (decT t) (xs.filter t.matches) = some (Ber.first hs) ∧
      each2 (fun h x => Found cs h.1 h.2 x) (Ber.others hs) (xs.filter cs.matches)
  | [], [], _ => ⟨rfl, trivial⟩
  | (0, v) :: hs, x :: xs, ⟨h1, h2⟩ => by
    obtain ⟨i1, i2⟩ := found_split f t cs hd hs xs h2
    have hx := Ty.disjointAll_matches t x cs hd h1.1
    rw [List.filter_cons_of_pos h1.1, List.filter_cons_of_neg (by simp [hx])]
    exact ⟨by simp only [mapOpt, h1.2, i1, Ber.first], i2⟩
  | (i + 1, v) :: hs, x :: xs, ⟨h1, h2⟩ => by
    obtain ⟨i1, i2⟩ := found_split f t cs hd hs xs h2
    have hm := Found.matches cs i v x h1
    have hx := Ty.disjointAll_matches' t x cs hd hm
    rw [List.filter_cons_of_neg (by simp [hx]), List.filter_cons_of_pos hm]
    exact ⟨i1, h1, i2⟩
  | [], _ :: _, h => h.elim
  | _ :: _, [], h => h.elim

theorem decSet_of : ∀ (cs : Comps) (vs : Vals) (hs : List (Nat × Val)) (xs : List TLV), cs.pairOk = true →
    each2 (fun h x => Found cs h.1 h.2 x) hs xs → Ber.settled cs vs hs → decSet cs xs = some vs
  | .nil, .nil, _, _, _, _, _ => by simp [decSet]
  | .nil, .cons _ _, _, _, _, _, h => h.elim
  | .cons _ _ _, .nil, _, _, _, _, h => h.elim
  | .cons f t cs, .cons v vs, hs, xs, hp, he, h => by
    simp only [Comps.pairOk, Bool.and_eq_true] at hp
    obtain ⟨h1, h2⟩ := found_split f t cs hp.1 hs xs he
    simp only [Ber.settled] at h
    have ih := decSet_of cs vs _ _ hp.2 h2 h.2
    rw [decSet_filter cs.matches cs xs (fun _ h => h)] at ih
    simp only [decSet, h1, ih]
    have h3 := h.1
    split at h3
    · rename_i w hw
      simp only [hw, h3]
    · rename_i hw
      have hmis : f.mode.missing = some v := by
        cases hf : f.mode <;> simp_all [Mode.missing]
      simp only [hw, hmis]

def BRA (cs : Comps) (i : Nat) (v : Val) (b : Bytes) : Prop := ∃ x, IsTLV b x ∧ Found cs i v x

theorem br_found (cs : Comps) (ih : ∀ i v b, Ber.alternative false cs i v b → BRA cs i v b) : ∀ (hs : List (Nat × Val)) (es : List Bytes),
    each2 (fun h e => Ber.alternative false cs h.1 h.2 e) hs es →
    ∃ xs, all2 IsTLV es xs ∧ each2 (fun h x => Found cs h.1 h.2 x) hs xs
  | [], [], _ => ⟨[], trivial, trivial⟩
  | h :: hs, e :: es, ⟨h1, h2⟩ => by
    obtain ⟨x, g1, g2⟩ := ih h.1 h.2 e h1
    obtain ⟨xs, g3, g4⟩ := br_found cs ih hs es h2
    exact ⟨x :: xs, ⟨g1, g3⟩, g2, g4⟩
  | [], _ :: _, h => h.elim
  | _ :: _, [], h => h.elim

theorem found_all (cs : Comps) : ∀ (hs : List (Nat × Val)) (xs : List TLV), each2 (fun h x => Found cs h.1 h.2 x) hs xs →
    xs.all cs.matches = true
  | [], [], _ => rfl
  | h :: hs, x :: xs, ⟨h1, h2⟩ => by simp [Found.matches cs h.1 h.2 x h1, -List.all_eq_true, found_all cs hs xs h2]
  | [], _ :: _, h => h.elim
  | _ :: _, [], h => h.elim

theorem br_prim (k : Prim) (a : Attrs) (v : Val) (b : Bytes) (hw : (Ty.prim k a).wf = true)
    (he : Ber.reads false (.prim k a) v b) : BR (.prim k a) v b := by
  by_cases hk : k = .any
  · subst hk
    simp only [Ty.wf, beq_self_eq_true, if_true, decide_eq_true_eq] at hw
    simp only [Ber.reads] at he
    obtain ⟨c, n, kk, contents, hel, hm⟩ := he
    have hx := element_of _ _ _ _ _ hel
    refine ⟨_, hx, ?_⟩
    cases hts : a.tags with
    | nil =>
      rw [hts] at hm
      simp only at hm
      subst hm
      simp [Ty.matches, hts, decT, decPrimT]
    | cons t ts =>
      have : ts = [] := by rw [hts] at hw; simp at hw; exact hw
      subst this
      rw [hts] at hm
      simp only [Bool.false_eq_true, false_and, or_false] at hm
      obtain ⟨rfl, rfl, rfl⟩ := hm
      simp [Ty.matches, hts, decT, decPrimT, TLV.has]
  · have hr : (∃ c, Ber.Contents k v c ∧ Ber.Tagged false a.tags c b) ∧ a.spec.ok (.simple v) = true := by
      cases k <;> first | exact absurd rfl hk | exact he
    obtain ⟨⟨c, hc, ht⟩, hok⟩ := hr
    have hkb : (k == Prim.any) = false := by simpa using hk
    obtain ⟨x, y, e1, e2, e3, e4, e5, e6⟩ := tagged_of _ _ _ _ ht
    refine ⟨x, e1, ?_, ?_⟩
    · simp only [Ty.matches]
      exact last_matches a.tags x _ e6 e5
    · simp [decT, decPrimT, hkb, e2, e3, e4, decPrim_of k v c hc, hok]

theorem br_seq (s : Bool) (a : Attrs) (cs : Comps) (v : Val) (b : Bytes)
    (ih : ∀ vs es, cs.wf = true → Ber.components false cs vs es → BRC cs vs es)
    (iha : ∀ i v b, cs.wf = true → Ber.alternative false cs i v b → BRA cs i v b)
    (hw : (Ty.seq s a cs).wf = true) (he : Ber.reads false (.seq s a cs) v b) : BR (.seq s a cs) v b := by
  cases v <;> simp only [Ber.reads] at he
  rename_i vs
  obtain ⟨⟨es, ht, hc⟩, hok⟩ := he
  simp only [Ty.wf, Bool.and_eq_true] at hw
  obtain ⟨⟨⟨_, hcw⟩, hdis⟩, _⟩ := hw
  rw [closed_noOpen, present_names] at hok
  have hok' : (!cs.noOpen || a.spec.ok (.mapping (presentNames cs vs).length (presentNames cs vs))) = true := by
    cases hn : cs.noOpen
    · rfl
    · simp [hok hn]
  obtain ⟨x, y, e1, e2, e3, e4, e5, e6⟩ := tagged_of _ _ _ _ ht
  refine ⟨x, e1, by simp only [Ty.matches]; exact last_matches a.tags x _ e6 e5, ?_⟩
  have key : ∃ xs, items es.flatten = some xs ∧
      (if s then (if xs.all cs.matches then decSet cs xs else none) else decComps cs xs) = some vs := by
    cases s with
    | false =>
      simp only [Bool.false_eq_true, if_false] at hc hdis ⊢
      obtain ⟨xs, h1, h2⟩ := ih vs es hcw hc
      exact ⟨xs, all2_isTLV_items _ _ h1, (h2 hdis).1⟩
    | true =>
      simp only [if_true, Bool.and_eq_true] at hc hdis ⊢
      obtain ⟨hs, hc1, hc2⟩ := hc
      obtain ⟨xs, h1, h2⟩ := br_found cs (fun i v b => iha i v b hcw) hs es hc1
      exact ⟨xs, all2_isTLV_items _ _ h1, by rw [if_pos (found_all cs hs xs h2)]; exact decSet_of cs vs hs xs hdis.1 h2 hc2⟩
  obtain ⟨xs, h1, h2⟩ := key
  simp only [decT, innerItems, e2, e3, e4, h1, if_true]
  rw [h2]
  simp only [hok', if_true]

theorem br_each (t : Ty) (ih : ∀ v b, Ber.reads false t v b → BR t v b) : ∀ (vs : List Val) (es : List Bytes),
    each2 (Ber.reads false t) vs es → ∃ xs, all2 IsTLV es xs ∧ mapOpt (decT t) xs = some vs
  | [], [], _ => ⟨[], trivial, rfl⟩
  | v :: vs, e :: es, ⟨h1, h2⟩ => by
    obtain ⟨x, g1, _, g3⟩ := ih v e h1
    obtain ⟨xs, g4, g5⟩ := br_each t ih vs es h2
    exact ⟨x :: xs, ⟨g1, g4⟩, by simp only [mapOpt, g3, g5]⟩
  | [], _ :: _, h => h.elim
  | _ :: _, [], h => h.elim

theorem br_of (s : Bool) (a : Attrs) (t : Ty) (v : Val) (b : Bytes) (ih : ∀ v b, t.wf = true → Ber.reads false t v b → BR t v b)
    (hw : (Ty.of s a t).wf = true) (he : Ber.reads false (.of s a t) v b) : BR (.of s a t) v b := by
  cases v <;> simp only [Ber.reads] at he
  rename_i vs
  obtain ⟨es, ht, hc⟩ := he
  simp only [Ty.wf, Bool.and_eq_true] at hw
  obtain ⟨x, y, e1, e2, e3, e4, e5, e6⟩ := tagged_of _ _ _ _ ht
  refine ⟨x, e1, by simp only [Ty.matches]; exact last_matches a.tags x _ e6 e5, ?_⟩
  obtain ⟨xs, h1, h2⟩ := br_each t (fun v b => ih v b hw.2) _ _ hc
  simp only [decT, innerItems, e2, e3, e4, all2_isTLV_items _ _ h1, if_true, h2, Vals.ofList_toList]

theorem br_choice (a : Attrs) (cs : Comps) (v : Val) (b : Bytes) (ih : ∀ i v b, cs.wf = true → Ber.alternative false cs i v b → BRA cs i v b)
    (hw : (Ty.choice a cs).wf = true) (he : Ber.reads false (.choice a cs) v b) : BR (.choice a cs) v b := by
  cases v <;> simp only [Ber.reads] at he
  rename_i i v
  simp only [Ty.wf, Bool.and_eq_true] at hw
  by_cases hts : a.tags = []
  · rw [if_pos hts] at he
    obtain ⟨x, h1, h2⟩ := ih i v b hw.1.2 he
    refine ⟨x, h1, by simp [Ty.matches, hts, Found.matches _ _ _ _ h2], ?_⟩
    have := Found.alt _ _ _ _ hw.2 h2 0
    rw [Nat.zero_add] at this
    simp only [decT, hts, this]
  · rw [if_neg hts] at he
    obtain ⟨k, c, junk, hc, ht⟩ := he
    obtain ⟨z, h1, h2⟩ := ih i v c hw.1.2 hc
    have hd := Found.alt _ _ _ _ hw.2 h2 0
    rw [Nat.zero_add] at hd
    obtain ⟨x, y, e1, e2, e3, e4, e5, e6⟩ := tagged_of _ _ _ _ ht
    refine ⟨x, e1, by simp only [Ty.matches]; exact last_matches a.tags x _ e6 e5, ?_⟩
    simp only [decT]
    split
    · rename_i h0; exact absurd h0 hts
    · simp only [e2, e4, h1.2 junk, hd]

theorem brc_cons (f : Field) (t : Ty) (cs : Comps) (vs : Vals) (es : List Bytes)
    (iht : ∀ v b, t.wf = true → Ber.reads false t v b → BR t v b)
    (ihc : ∀ vs es, cs.wf = true → Ber.components false cs vs es → BRC cs vs es)
    (hw : (Comps.cons f t cs).wf = true) (he : Ber.components false (.cons f t cs) vs es) : BRC (.cons f t cs) vs es := by
  cases vs with
  | nil => simp [Ber.components] at he
  | cons v vs =>
  simp only [Comps.wf, Bool.and_eq_true] at hw
  simp only [Ber.components] at he
  rcases he with ⟨e, es', rfl, h1, h2⟩ | ⟨h1, h2⟩
  · obtain ⟨xs, k1, k2⟩ := ihc vs es' hw.2 h2
    obtain ⟨x, g1, g2, g3⟩ := iht v e hw.1 h1
    refine ⟨x :: xs, ⟨g1, k1⟩, ?_⟩
    intro hs
    simp only [Comps.seqOk, Bool.and_eq_true] at hs
    refine ⟨by simp [decComps, g2, g3, (k2 hs.2).1], ?_⟩
    intro y hy
    simp only [List.head?_cons, Option.some.injEq] at hy; subst hy
    simp [Comps.windowMatches, g2]
  · have hmis : f.mode.missing = some v := by
      cases hf : f.mode <;> simp_all [Mode.missing]
    have hreq : f.mode.isReq = false := by
      cases hf : f.mode <;> simp_all [Mode.isReq]
    obtain ⟨xs, k1, k2⟩ := ihc vs es hw.2 h1
    refine ⟨xs, k1, ?_⟩
    intro hs
    simp only [Comps.seqOk, hreq, Bool.false_or, Bool.and_eq_true] at hs
    obtain ⟨g1, g2⟩ := k2 hs.2
    cases xs with
    | nil => exact ⟨by simp [decComps, hmis, g1], by simp⟩
    | cons x xs =>
      have gw := g2 x rfl
      have gm := Ty.disjointWindow_matches t x cs hs.1 gw
      refine ⟨?_, ?_⟩
      · simp [decComps, hreq, gm, gw, hmis, g1]
      · intro y hy
        simp only [List.head?_cons, Option.some.injEq] at hy; subst hy
        simp [Comps.windowMatches, hreq, gw]

mutual
theorem br : ∀ (t : Ty) (v : Val) (b : Bytes), t.wf = true → Ber.reads false t v b → BR t v b
  | .prim k a, v, b, hw, he => br_prim k a v b hw he
  | .seq s a cs, v, b, hw, he => br_seq s a cs v b (brC cs) (brA cs) hw he
  | .of s a t, v, b, hw, he => br_of s a t v b (br t) hw he
  | .choice a cs, v, b, hw, he => br_choice a cs v b (brA cs) hw he
  | .bad _, _, _, hw, _ => by simp [Ty.wf] at hw
theorem brC : ∀ (cs : Comps) (vs : Vals) (es : List Bytes), cs.wf = true → Ber.components false cs vs es → BRC cs vs es
  | .nil, vs, es, _, he => by
    cases vs with
    | cons => simp [Ber.components] at he
    | nil =>
      simp only [Ber.components] at he; subst he
      exact ⟨[], trivial, fun _ => ⟨by simp [decComps], by simp⟩⟩
  | .cons f t cs, vs, es, hw, he => brc_cons f t cs vs es (br t) (brC cs) hw he
theorem brA : ∀ (cs : Comps) (i : Nat) (v : Val) (b : Bytes), cs.wf = true → Ber.alternative false cs i v b → BRA cs i v b
  | .nil, _, _, _, _, he => by simp [Ber.alternative] at he
  | .cons f t cs, 0, v, b, hw, he => by
    simp only [Comps.wf, Bool.and_eq_true] at hw
    simp only [Ber.alternative] at he
    obtain ⟨x, h1, h2, h3⟩ := br t v b hw.1 he
    exact ⟨x, h1, h2, h3⟩
  | .cons f t cs, i + 1, v, b, hw, he => by
    simp only [Comps.wf, Bool.and_eq_true] at hw
    simp only [Ber.alternative] at he
    exact brA cs i v b hw.2 he
end

theorem ber_decode (t : Ty) (v : Val) (p rest : Bytes) (hw : t.wf = true) (h : Ber.reads false t v p) :
    decode t (p ++ rest) = some (v, rest) := by
  obtain ⟨x, h1, _, h3⟩ := br t v p hw h
  simp only [decode, h1.2 rest, h3]

end Asn1
end Verif
