import Verif.Spec.Shortest
import Verif.Asn1.DerPrim
import Verif.Asn1.Total
import Verif.Asn1.Ber

/-! Lemmas: the encoder's output is compared with the octets that were read. -/

namespace Verif
namespace Asn1

open Der

/-! ## Headers -/

theorem number_below (m : Nat) (hm : 0 < m) (b : Octets) : number m b < m ^ b.length := by
  refine list_snoc (fun b => number m b < m ^ b.length) ?_ ?_ b
  · simp [number]
  · intro b x h
    rw [number_snoc]
    simp only [List.length_append, List.length_cons, List.length_nil, Nat.zero_add, Nat.pow_succ]
    have h1 := Nat.mod_lt x.toNat hm
    have h2 : (number m b + 1) * m ≤ m ^ b.length * m := Nat.mul_le_mul_right _ h
    rw [Nat.add_mul] at h2
    omega

theorem identifier_length (c : Cls) (k k' : Bool) (n : Nat) (i : Octets) (h : Ber.Identifier c k n i) :
    (encTag c k' n).length ≤ i.length ∧ 1 ≤ i.length := by
  cases h with
  | low h => simp [encTag, show n < 31 by omega]
  | high g hg =>
    obtain ⟨hi, lo, rfl, -, -, hn⟩ := hg
    refine ⟨?_, by simp⟩
    simp only [encTag]
    split
    · simp
    · have h1 := number_below 128 (by decide) (hi ++ [lo])
      rw [hn] at h1
      simp only [List.length_append, List.length_cons, List.length_nil, Nat.pow_succ] at h1
      have := b128Hi_length hi.length n (n / 128) (by omega)
      simp only [b128, List.length_append, List.length_cons, List.length_nil]
      omega

theorem length_length {n m : Nat} {l l' : Octets} (hl : Ber.Length m l) (h : encLen n = some l') (hn : n ≤ m) : l'.length ≤ l.length := by
  simp only [encLen] at h
  split at h
  · simp only [Option.some.injEq] at h; subst h
    cases hl <;> simp
  · split at h
    · simp at h
    · simp only [Option.some.injEq] at h; subst h
      cases hl with
      | short => omega
      | long s hs h1 h2 =>
        have := natBytes_length s.length n n (by have := number_below 256 (by decide) s; omega)
        simpa using this

theorem length_double {n m : Nat} {l l' : Octets} (hl : Ber.Length m l) (h : encLen n = some l') (hn : n ≤ 2 * m) :
    l'.length ≤ l.length + 1 := by
  simp only [encLen] at h
  split at h
  · simp only [Option.some.injEq] at h; subst h
    simp
  · split at h
    · simp at h
    · simp only [Option.some.injEq] at h; subst h
      cases hl with
      | short => have := natBytes_length 1 n n (by omega); simpa using this
      | long s hs h1 h2 =>
        have := natBytes_length (s.length + 1) n n (by have := number_below 256 (by decide) s; rw [Nat.pow_succ]; omega)
        simpa using this

theorem length_pos {m : Nat} {l : Octets} (hl : Ber.Length m l) : 1 ≤ l.length := by cases hl <;> simp

/-! ## Elements -/

theorem tlv_length {t : Tag} {isC : Bool} {c e : Bytes} (h : tlv t isC c = some e) :
    ∃ l, encLen c.length = some l ∧ e.length = (encTag t.cls (t.constructed || isC) t.num).length + l.length + c.length := by
  simp only [tlv, Option.map_eq_some_iff] at h
  obtain ⟨l, h1, rfl⟩ := h
  exact ⟨l, h1, by simp; omega⟩

/-- Contents not longer: the element is not longer.  Contents at most `K` halves as long: the element too. -/
theorem element_rate {K : Nat} (hK : K = 2 ∨ K = 3 ∨ K = 4) {t : Tag} {k isC : Bool} {c c' e e' : Bytes}
    (h : Ber.Element t.cls t.num k c e) (h' : tlv t isC c' = some e') (hc : 2 * c'.length ≤ K * c.length) : 2 * e'.length ≤ K * e.length := by
  obtain ⟨i, l, hi, hl, rfl⟩ := h
  obtain ⟨l', h1, h2⟩ := tlv_length h'
  have hi := identifier_length _ _ (t.constructed || isC) _ _ hi
  have hp := length_pos hl
  rw [h2]
  simp only [List.length_append]
  rcases hK with rfl | rfl | rfl
  · have := length_length hl h1 (by omega); omega
  · have := length_double hl h1 (by omega); omega
  · have := length_double hl h1 (by omega); omega

/-- One octet more in the contents: the element at most half as long again. -/
theorem element_one {t : Tag} {k isC : Bool} {c c' e e' : Bytes}
    (h : Ber.Element t.cls t.num k c e) (h' : tlv t isC c' = some e') (hc : c'.length ≤ c.length + 1) : 2 * e'.length ≤ 3 * e.length := by
  obtain ⟨i, l, hi, hl, rfl⟩ := h
  obtain ⟨l', h1, h2⟩ := tlv_length h'
  have hi := identifier_length _ _ (t.constructed || isC) _ _ hi
  have hp := length_pos hl
  rw [h2]
  simp only [List.length_append]
  by_cases h0 : c.length < 2
  · have : l'.length = 1 := by
      simp only [encLen] at h1
      rw [if_pos (by omega)] at h1
      simp only [Option.some.injEq] at h1
      rw [← h1]; rfl
    omega
  · have := length_double hl h1 (by omega); omega

theorem around_rate {K : Nat} (hK : K = 2 ∨ K = 3 ∨ K = 4) {isC : Bool} : ∀ {ts : TagSet} {e e' b b' : Bytes}, Ber.Around ts e b →
    wrap isC ts e' = some b' → 2 * e'.length ≤ K * e.length → 2 * b'.length ≤ K * b.length
  | [], e, e', b, b', h, h', hl => by
    simp only [Ber.Around] at h
    simp only [wrap, Option.some.injEq] at h'
    subst h h'
    exact hl
  | t :: ts, e, e', b, b', h, h', hl => by
    obtain ⟨-, junk, e1, h1, h2⟩ := h
    simp only [wrap, Option.bind_eq_some_iff] at h'
    obtain ⟨e2, h3, h4⟩ := h'
    refine around_rate hK h2 h4 (element_rate hK h1 h3 ?_)
    rw [List.length_append]
    have : K * e.length ≤ K * (e.length + junk.length) := Nat.mul_le_mul_left _ (by omega)
    omega

theorem tagged_rate {K : Nat} (hK : K = 2 ∨ K = 3 ∨ K = 4) {isC k : Bool} {ts : TagSet} {c c' b b' : Bytes} (h : Ber.Tagged k ts c b)
    (h' : wrap isC ts c' = some b') (hc : 2 * c'.length ≤ K * c.length) : 2 * b'.length ≤ K * b.length := by
  cases ts with
  | nil => exact h.elim
  | cons t ts =>
    obtain ⟨e, h1, h2⟩ := h
    simp only [wrap, Option.bind_eq_some_iff] at h'
    obtain ⟨e2, h3, h4⟩ := h'
    exact around_rate hK h2 h4 (element_rate hK h1 h3 hc)

/-! ## Simple values -/

theorem encInt_le (c : Octets) : (encInt (twos c)).length ≤ c.length + 1 := by
  have hlen : (encInt (twos c)).length = bitLen (twos c).natAbs / 8 + 1 := by simp [encInt, beBytes_length]
  rw [hlen]
  match c with
  | [] => simp [twos, bitLen]
  | y :: r =>
    have hr := twos_range y r
    have e : (256 : Int) ^ r.length = ((256 ^ r.length : Nat) : Int) := by rw [Int.natCast_pow]; rfl
    rw [e] at hr
    by_cases hn : (twos (y :: r)).natAbs = 0
    · rw [hn]; simp [bitLen]
    · have h1 := le_bitLen _ hn
      have h2 : 2 ^ (bitLen (twos (y :: r)).natAbs - 1) < 2 ^ (8 * r.length + 8) := by
        rw [show 8 * r.length + 8 = (8 * r.length + 7) + 1 from rfl, Nat.pow_succ, pow2_256]
        omega
      have h3 := (Nat.pow_lt_pow_iff_right (a := 2) (by decide)).1 h2
      simp only [List.length_cons]
      omega

theorem encInt_shorter {c : Octets} (hc : c ≠ []) (h : notEdge (twos c)) : (encInt (twos c)).length ≤ c.length :=
  shortest_length hc (by rw [twos_decInt (encInt _), decInt_encInt]) ((encInt_shortest _).2 h)

theorem encBits_le {bs pad : List Bool} {u : UInt8} {body : Octets} (h1 : u.toNat ≤ 7) (h2 : pad.length = u.toNat)
    (h3 : body.flatMap bitsOf = bs ++ pad) : (encBits bs).length ≤ body.length + 1 := by
  obtain ⟨u', body', h4, h5, h6, -⟩ := (bits_iff bs (encBits bs)).2 rfl
  rw [h4, List.length_cons]
  have hl := congrArg List.length h3
  have hl' := congrArg List.length h6
  rw [flatMap_bitsOf_length, List.length_append] at hl hl'
  rw [List.length_replicate] at hl'
  omega

theorem character_enc (k : CharKind) (ch : Char) (b b' : Octets) (h : Ber.Character k ch b) (h' : encChar k ch = some b') :
    b'.length = b.length := by
  have key : (k = .utf16be → ch.toNat < 65536) → Der.Character k ch b → b'.length = b.length := by
    intro h1 h2
    have := (character_iff k ch h1 b).1 h2
    rw [h'] at this
    simpa using congrArg (Option.map List.length) this
  cases k with
  | utf16be =>
    rcases h with h | ⟨x, y, z, w, rfl, h1, h2, h3, h4, h5⟩
    · refine key (fun _ => ?_) h
      obtain ⟨x, y, _, hh⟩ := h
      have := x.toNat_lt; have := y.toNat_lt
      omega
    · simp only [encChar] at h'
      rw [if_neg (by omega)] at h'
      simp only [Option.some.injEq] at h'
      rw [← h']
      simp [beBytes_length]
  | _ => exact key (fun h => by simp at h) h

theorem string_enc (k : CharKind) : ∀ (s : List Char) (bs : List Octets) (c' : Octets), each2 (Ber.Character k) s bs →
    encStr k s = some c' → c'.length = bs.flatten.length
  | [], bs, c', h, h' => by
    cases bs with
    | nil => simp only [encStr, Option.some.injEq] at h'; subst h'; rfl
    | cons => exact h.elim
  | ch :: s, bs, c', h, h' => by
    cases bs with
    | nil => exact h.elim
    | cons b bs =>
      simp only [encStr] at h'
      cases e1 : encChar k ch with
      | none => simp [e1] at h'
      | some b1 =>
        cases e2 : encStr k s with
        | none => simp [e1, e2] at h'
        | some r =>
          simp only [e1, e2, Option.some.injEq] at h'
          subst h'
          have h1 := character_enc k ch b b1 h.1 e1
          have h2 := string_enc k s bs r h.2 e2
          simp [h1, h2]

theorem ascii_length : ∀ (s : List Char) (c : Octets), encStr .ascii s = some c → c.length = s.length
  | [], c, h => by simp only [encStr, Option.some.injEq] at h; subst h; rfl
  | ch :: s, c, h => by
    simp only [encStr, encChar] at h
    split at h
    · rename_i a b ha hb
      split at ha
      · simp only [Option.some.injEq] at ha h
        subst ha h
        simp [ascii_length s b hb]
      · simp at ha
    · simp at h

theorem ascii_each : ∀ (s : List Char) (bs : List Octets), each2 (Ber.Character .ascii) s bs → bs.flatten.length = s.length
  | [], [], _ => rfl
  | [], _ :: _, h => h.elim
  | _ :: _, [], h => h.elim
  | ch :: s, b :: bs, ⟨⟨x, hx, _⟩, h⟩ => by subst hx; simp [ascii_each s bs h]

/-- A time gets no longer when its fraction is trimmed. -/
theorem trimTime_length (s : List Char) : (trimTime s).length ≤ s.length := by
  rcases dot_cases s with ⟨h1, -⟩ | ⟨pre, f, rfl, h1, h2⟩
  · rw [trimTime_none s h1]; exact Nat.le_refl _
  · have h3 : (pre ++ '.' :: f).takeWhile (· != '.') = pre := by
      rw [List.takeWhile_append_of_pos (by simpa using h1)]; simp
    have h4 : ((f.take 4).reverse.takeWhile (· != '.')).length + ((f.take 4).reverse.dropWhile (· != '.')).length = (f.take 4).length := by
      rw [← List.length_append, List.takeWhile_append_dropWhile, List.length_reverse]
    have h5 := List.length_filter_le (· != '0') ((f.take 4).reverse.takeWhile (· != '.')).reverse
    have h6 : (f.take 4).length + (f.drop 4).length = f.length := by rw [← List.length_append, List.take_append_drop]
    simp only [trimTime, h2, h3]
    rw [List.length_reverse] at h5
    split <;> simp only [List.length_append, List.length_dropLast, List.length_cons, List.length_reverse] <;> omega

theorem time_shorter (s : List Char) (bs : List Octets) (c' : Octets) (h : each2 (Ber.Character .ascii) s bs)
    (h' : encStr .ascii (trimTime s) = some c') : c'.length ≤ bs.flatten.length := by
  rw [ascii_length _ _ h', ascii_each s bs h]
  exact trimTime_length s

/-- But for integers the encoder needs no more octets than there were. -/
theorem contents_ordinary (k : Prim) (v : Val) (c c' : Octets) (h : Ber.ordinary k v c) (h' : encPrim k v = some c') :
    c'.length ≤ c.length := by
  obtain ⟨h, hx⟩ := h
  cases k <;> cases v <;> simp only [encPrim, reduceCtorEq, Option.some.injEq] at h' <;>
    first | (simp only [Ber.Contents] at h; done) | skip
  case boolean.int =>
    subst h'
    rcases h with ⟨-, rfl⟩ | ⟨-, rfl⟩ <;> split <;> simp
  case integer.int => subst h' h; exact encInt_shorter hx.1 hx.2
  case enumerated.int => subst h' h; exact encInt_shorter hx.1 hx.2
  case bitString.bits =>
    subst h'
    obtain ⟨u, body, pad, rfl, h1, h2, h3⟩ := h
    exact encBits_le h1 h2 h3
  case octetString.octets => subst h' h; exact Nat.le_refl _
  case null.null => subst h' h; exact Nat.le_refl _
  case oid.oid arcs =>
    match arcs, h, h' with
    | x :: y :: r, h, h' =>
      have := (oid_iff x y r c).1 h
      rw [h'] at this
      simp only [Option.some.injEq] at this
      rw [this]; exact Nat.le_refl _
    | [], h, _ => exact h.elim
    | [_], h, _ => exact h.elim
  case str.str k s =>
    obtain ⟨bs, h1, rfl⟩ := h
    exact Nat.le_of_eq (string_enc k s bs c' h1 h')
  case utcTime.str s =>
    obtain ⟨bs, h1, rfl⟩ := h
    split at h'
    · exact time_shorter s bs c' h1 h'
    · simp at h'
  case generalizedTime.str s =>
    obtain ⟨bs, h1, rfl⟩ := h
    split at h'
    · exact time_shorter s bs c' h1 h'
    · simp at h'

/-- The encoder needs at most one octet more than there were. -/
theorem contents_one (k : Prim) (v : Val) (c c' : Octets) (h : Ber.Contents k v c) (h' : encPrim k v = some c') :
    c'.length ≤ c.length + 1 := by
  by_cases hk : (k = .integer ∨ k = .enumerated) ∧ ∃ i, v = .int i
  · obtain ⟨hk, i, rfl⟩ := hk
    rcases hk with rfl | rfl <;> simp only [encPrim, Option.some.injEq] at h' <;> subst h' h <;> exact encInt_le c
  · have : Ber.ordinary k v c := by
      refine ⟨h, ?_⟩
      split
      · exact absurd ⟨.inl rfl, _, rfl⟩ hk
      · exact absurd ⟨.inr rfl, _, rfl⟩ hk
      · trivial
    have := contents_ordinary k v c c' this h'
    omega

/-! ## Values -/

mutual
/-- Every ANY inside satisfies the condition. -/
def Ty.everyAny (p : Attrs → Bool) : Ty → Bool
  | .prim k a => k != .any || p a
  | .seq _ _ cs => cs.everyAny p
  | .of _ _ t => t.everyAny p
  | .choice _ cs => cs.everyAny p
  | .bad _ => true
def Comps.everyAny (p : Attrs → Bool) : Comps → Bool
  | .nil => true
  | .cons _ t cs => t.everyAny p && cs.everyAny p
end

/-- What is needed of the simple values and ANYs. -/
structure Rate (C : Prim → Val → Octets → Prop) (lax : Bool) (p : Attrs → Bool) (K : Nat) : Prop where
  rate : K = 2 ∨ K = 3 ∨ K = 4
  prim : ∀ k v c c' t e e', C k v c → encPrim k v = some c' → Ber.Element t.cls t.num false c e → tlv t false c' = some e' →
    2 * e'.length ≤ K * e.length
  any : ∀ a v b b', p a = true → Ber.readsBy C lax (.prim .any a) v b → enc false (.prim .any a) v = some b' →
    2 * b'.length ≤ K * b.length

theorem sorted_length {α : Type} (f : α → Bytes) {β : Type} (le : β → β → Bool) (key : α → β) (ps : List α) :
    ((sortBy le key ps).flatMap f).length = (ps.flatMap f).length := flatMap_length_perm f (sortBy_perm le key ps)

/-- What was read for the first component of a SET and for the others, apart. -/
theorem first_others (Q : Nat × Val → Bytes → Prop) : ∀ (hs : List (Nat × Val)) (es : List Bytes), each2 Q hs es →
    ∃ es1 es2, each2 (fun v e => Q (0, v) e) (Ber.first hs) es1 ∧ each2 (fun h e => Q (h.1 + 1, h.2) e) (Ber.others hs) es2 ∧
      es.flatten.length = es1.flatten.length + es2.flatten.length
  | [], [], _ => ⟨[], [], trivial, trivial, rfl⟩
  | [], _ :: _, h => h.elim
  | _ :: _, [], h => h.elim
  | (0, v) :: hs, e :: es, h => by
    obtain ⟨es1, es2, h1, h2, h3⟩ := first_others Q hs es h.2
    exact ⟨e :: es1, es2, ⟨h.1, h1⟩, h2, by simp only [List.flatten_cons, List.length_append, h3]; omega⟩
  | (i + 1, v) :: hs, e :: es, h => by
    obtain ⟨es1, es2, h1, h2, h3⟩ := first_others Q hs es h.2
    exact ⟨es1, e :: es2, h1, ⟨h.1, h2⟩, by simp only [List.flatten_cons, List.length_append, h3]; omega⟩

theorem last_length {p : Val → Bytes → Prop} : ∀ (ws : List Val) (es : List Bytes) (w : Val), each2 p ws es → ws.getLast? = some w →
    ∃ e, p w e ∧ e.length ≤ es.flatten.length
  | [], _, _, _, h => by simp at h
  | _ :: _, [], _, h, _ => h.elim
  | [x], [e], w, h, hw => by
    simp only [List.getLast?_singleton, Option.some.injEq] at hw
    subst hw
    exact ⟨e, h.1, by simp⟩
  | [_], _ :: _ :: _, _, h, _ => h.2.elim
  | x :: y :: ws, e :: es, w, h, hw => by
    rw [List.getLast?_cons_cons] at hw
    obtain ⟨e', h1, h2⟩ := last_length (y :: ws) es w h.2 hw
    exact ⟨e', h1, by simp only [List.flatten_cons, List.length_append]; omega⟩

/-- A component that is not there and one equal to its default are not written. -/
theorem encComps_left_out {f : Field} {t : Ty} {cs : Comps} {v : Val} {vs : Vals} {ps : List (TagSet × Bytes)}
    (h : encComps (.cons f t cs) (.cons v vs) = some ps) (hm : match f.mode with
      | .req => False
      | .opt => v = .absent
      | .dflt d => v = d) : encComps cs vs = some ps := by
  simp only [encComps] at h
  cases he : encComps cs vs with
  | none => simp [he] at h
  | some ps' =>
    simp only [he] at h
    cases hf : f.mode with
    | req => simp [hf] at hm
    | opt => simp only [hf] at hm h; subst hm; simpa using h
    | dflt d =>
      simp only [hf] at hm h
      subst hm
      cases v <;> simpa using h

mutual
theorem enc_rate {C : Prim → Val → Octets → Prop} {lax : Bool} {p : Attrs → Bool} {K : Nat} (R : Rate C lax p K) :
    ∀ (t : Ty) (ine : Bool) (v : Val) (b b' : Bytes), t.everyAny p = true → Ber.readsBy C lax t v b → enc ine t v = some b' →
      2 * b'.length ≤ K * b.length
  | .prim k a, ine, v, b, b', ha, h, h' => by
    by_cases hk : k = .any
    · subst hk
      exact R.any a v b b' (by simpa [Ty.everyAny] using ha) h h'
    · have h2 : (∃ c, C k v c ∧ Ber.Tagged false a.tags c b) ∧ a.spec.ok (.simple v) = true := by
        cases k <;> first | exact absurd rfl hk | exact h
      obtain ⟨⟨c, h3, h4⟩, -⟩ := h2
      simp only [enc, Option.bind_eq_some_iff] at h'
      obtain ⟨c', h5, h6⟩ := h'
      cases hts : a.tags with
      | nil => rw [hts] at h4; exact h4.elim
      | cons t ts =>
        rw [hts] at h4 h6
        obtain ⟨e, h7, h8⟩ := h4
        simp only [wrap, Option.bind_eq_some_iff] at h6
        obtain ⟨e', h9, h10⟩ := h6
        exact around_rate R.rate h8 h10 (R.prim k v c c' t e e' h3 h5 h7 h9)
  | .seq s a cs, ine, v, b, b', ha, h, h' => by
    cases v <;> simp only [Ber.readsBy] at h
    rename_i vs
    obtain ⟨⟨es, h1, h2⟩, -⟩ := h
    simp only [enc] at h'
    split at h'
    · cases he : encComps cs vs with
      | none => simp [he] at h'
      | some ps =>
        simp only [he] at h'
        have key : 2 * (ps.flatMap Prod.snd).length ≤ K * es.flatten.length := by
          cases s with
          | false =>
            simp only [Bool.false_eq_true, if_false] at h2
            exact encComps_rate R cs vs es ps ha h2 he
          | true =>
            simp only [if_true] at h2
            obtain ⟨hs, g1, g2⟩ := h2
            exact encSet_rate R cs vs hs es ps ha g1 g2 he
        cases s with
        | true =>
          simp only [if_true] at h'
          split at h'
          · simp only [Option.some.injEq] at h'; subst h'; simp
          · exact tagged_rate R.rate h1 h' (by rw [sorted_length]; exact key)
        | false =>
          simp only [Bool.false_eq_true, if_false] at h'
          split at h'
          · simp only [Option.some.injEq] at h'; subst h'; simp
          · exact tagged_rate R.rate h1 h' (by exact key)
    · simp at h'
  | .of s a t, ine, v, b, b', ha, h, h' => by
    cases v <;> simp only [Ber.readsBy] at h
    rename_i vs
    obtain ⟨es, h1, h2⟩ := h
    simp only [enc] at h'
    split at h'
    · cases he : mapOpt (fun v => (enc ine t v).map (fun b => (b, v))) vs.toList with
      | none => simp [he] at h'
      | some ps =>
        simp only [he] at h'
        have key : ∀ (l : List Val) (es : List Bytes) (ps : List (Bytes × Val)), each2 (Ber.readsBy C lax t) l es →
            mapOpt (fun v => (enc ine t v).map (fun b => (b, v))) l = some ps →
            2 * (ps.flatMap Prod.fst).length ≤ K * es.flatten.length := by
          intro l
          induction l with
          | nil => intro es ps _ hp; simp only [mapOpt, Option.some.injEq] at hp; subst hp; simp
          | cons v l ih =>
            intro es ps hh hp
            cases es with
            | nil => exact hh.elim
            | cons e es =>
              simp only [mapOpt] at hp
              cases hb : enc ine t v with
              | none => simp [hb] at hp
              | some b1 =>
                cases hm : mapOpt (fun v => (enc ine t v).map (fun b => (b, v))) l with
                | none => simp [hb, hm] at hp
                | some ps' =>
                  simp only [hb, hm, Option.map_some, Option.some.injEq] at hp
                  subst hp
                  have i1 := enc_rate R t ine v e b1 ha hh.1 hb
                  have i2 := ih es ps' hh.2 hm
                  simp only [List.flatMap_cons, List.flatten_cons, List.length_append, Nat.mul_add]
                  omega
        cases s with
        | true =>
          simp only [if_true] at h'
          split at h'
          · simp only [Option.some.injEq] at h'; subst h'; simp
          · exact tagged_rate R.rate h1 h' (by rw [sortChunks, sorted_length]; exact key _ _ _ h2 he)
        | false =>
          simp only [Bool.false_eq_true, if_false] at h'
          split at h'
          · simp only [Option.some.injEq] at h'; subst h'; simp
          · exact tagged_rate R.rate h1 h' (by exact key _ _ _ h2 he)
    · simp at h'
  | .choice a cs, ine, v, b, b', ha, h, h' => by
    cases v <;> simp only [Ber.readsBy] at h
    rename_i i v
    simp only [enc] at h'
    cases he : encAlt ine cs i v with
    | none => simp [he] at h'
    | some c =>
      simp only [he] at h'
      split at h'
      · simp only [Option.some.injEq] at h'; subst h'; simp
      · split at h
        · rename_i ht
          rw [ht] at h'
          simp only [wrap, Option.some.injEq] at h'
          subst h'
          exact encAlt_rate R cs ine i v b c ha h he
        · obtain ⟨k, e, junk, h1, h2⟩ := h
          refine tagged_rate R.rate h2 h' ?_
          have := encAlt_rate R cs ine i v e c ha h1 he
          rw [List.length_append, Nat.mul_add]
          omega
  | .bad _, ine, v, b, b', _, h, _ => by simp [Ber.readsBy] at h
theorem encComps_rate {C : Prim → Val → Octets → Prop} {lax : Bool} {p : Attrs → Bool} {K : Nat} (R : Rate C lax p K) :
    ∀ (cs : Comps) (vs : Vals) (es : List Bytes) (ps : List (TagSet × Bytes)), cs.everyAny p = true → Ber.componentsBy C lax cs vs es →
      encComps cs vs = some ps → 2 * (ps.flatMap Prod.snd).length ≤ K * es.flatten.length
  | .nil, .nil, es, ps, _, _, h' => by simp only [encComps, Option.some.injEq] at h'; subst h'; simp
  | .nil, .cons _ _, _, _, _, h, _ => by simp [Ber.componentsBy] at h
  | .cons _ _ _, .nil, _, _, _, h, _ => by simp [Ber.componentsBy] at h
  | .cons f t cs, .cons v vs, es, ps, ha, h, h' => by
    simp only [Comps.everyAny, Bool.and_eq_true] at ha
    simp only [Ber.componentsBy] at h
    rcases h with ⟨e, es', rfl, h1, h2⟩ | ⟨h1, h2⟩
    · obtain ⟨ps', h3, h4⟩ := encComps_cons h'
      have i2 := encComps_rate R cs vs es' ps' ha.2 h2 h3
      rcases h4 with ⟨-, -, rfl⟩ | ⟨-, -, b, h5, rfl⟩
      · simp only [List.flatten_cons, List.length_append, Nat.mul_add]; omega
      · have i1 := enc_rate R t _ v e b ha.1 h1 h5
        simp only [List.flatMap_cons, List.flatten_cons, List.length_append, Nat.mul_add]; omega
    · exact encComps_rate R cs vs es ps ha.2 h1 (encComps_left_out h' h2)
theorem encSet_rate {C : Prim → Val → Octets → Prop} {lax : Bool} {p : Attrs → Bool} {K : Nat} (R : Rate C lax p K) :
    ∀ (cs : Comps) (vs : Vals) (hs : List (Nat × Val)) (es : List Bytes) (ps : List (TagSet × Bytes)), cs.everyAny p = true →
      each2 (fun h e => Ber.alternativeBy C lax cs h.1 h.2 e) hs es → Ber.settled cs vs hs →
      encComps cs vs = some ps → 2 * (ps.flatMap Prod.snd).length ≤ K * es.flatten.length
  | .nil, .nil, _, es, ps, _, _, _, h' => by simp only [encComps, Option.some.injEq] at h'; subst h'; simp
  | .nil, .cons _ _, _, _, _, _, _, h, _ => by simp [Ber.settled] at h
  | .cons _ _ _, .nil, _, _, _, _, _, h, _ => by simp [Ber.settled] at h
  | .cons f t cs, .cons v vs, hs, es, ps, ha, h, hset, h' => by
    simp only [Comps.everyAny, Bool.and_eq_true] at ha
    obtain ⟨hv, hset⟩ := hset
    obtain ⟨es1, es2, g1, g2, g3⟩ := first_others _ hs es h
    simp only [Ber.alternativeBy] at g1 g2
    cases hl : (Ber.first hs).getLast? with
    | none =>
      simp only [hl] at hv
      have := encSet_rate R cs vs _ es2 ps ha.2 g2 hset (encComps_left_out h' hv)
      rw [g3, Nat.mul_add]
      omega
    | some w =>
      simp only [hl] at hv
      subst hv
      obtain ⟨e, k1, k2⟩ := last_length _ _ _ g1 hl
      obtain ⟨ps', h3, h4⟩ := encComps_cons h'
      have i2 := encSet_rate R cs vs _ es2 ps' ha.2 g2 hset h3
      rcases h4 with ⟨-, -, rfl⟩ | ⟨-, -, b, h5, rfl⟩
      · rw [g3, Nat.mul_add]; omega
      · have i1 := enc_rate R t _ v e b ha.1 k1 h5
        have : K * e.length ≤ K * es1.flatten.length := Nat.mul_le_mul_left _ k2
        simp only [List.flatMap_cons, List.length_append, g3, Nat.mul_add]
        omega
theorem encAlt_rate {C : Prim → Val → Octets → Prop} {lax : Bool} {p : Attrs → Bool} {K : Nat} (R : Rate C lax p K) :
    ∀ (cs : Comps) (ine : Bool) (i : Nat) (v : Val) (b b' : Bytes), cs.everyAny p = true → Ber.alternativeBy C lax cs i v b →
      encAlt ine cs i v = some b' → 2 * b'.length ≤ K * b.length
  | .nil, _, _, _, _, _, _, h, _ => by simp [Ber.alternativeBy] at h
  | .cons _ t cs, ine, 0, v, b, b', ha, h, h' => by
    simp only [Comps.everyAny, Bool.and_eq_true] at ha
    simp only [Ber.alternativeBy] at h
    simp only [encAlt] at h'
    exact enc_rate R t ine v b b' ha.1 h h'
  | .cons _ t cs, ine, i + 1, v, b, b', ha, h, h' => by
    simp only [Comps.everyAny, Bool.and_eq_true] at ha
    simp only [Ber.alternativeBy] at h
    simp only [encAlt] at h'
    exact encAlt_rate R cs ine i v b b' ha.2 h h'
end

/-! ## The relation with its contents -/

mutual
theorem reads_by (lax : Bool) : ∀ (t : Ty) (v : Val) (b : Octets), Ber.readsBy Ber.Contents lax t v b ↔ Ber.reads lax t v b
  | .prim k a, v, b => by cases k <;> exact Iff.rfl
  | .seq s a cs, v, b => by
    cases v <;> simp only [Ber.readsBy, Ber.reads]
    rename_i vs
    simp only [components_by lax cs, alternative_by lax cs]
  | .of _ a t, v, b => by
    cases v <;> simp only [Ber.readsBy, Ber.reads]
    rename_i vs
    have : Ber.readsBy Ber.Contents lax t = Ber.reads lax t := by
      funext v b; exact propext (reads_by lax t v b)
    rw [this]
  | .choice a cs, v, b => by
    cases v <;> simp only [Ber.readsBy, Ber.reads]
    simp only [alternative_by lax cs]
  | .bad _, v, b => by simp [Ber.readsBy, Ber.reads]
theorem components_by (lax : Bool) : ∀ (cs : Comps) (vs : Vals) (es : List Octets),
    Ber.componentsBy Ber.Contents lax cs vs es ↔ Ber.components lax cs vs es
  | .nil, vs, es => by cases vs <;> simp [Ber.componentsBy, Ber.components]
  | .cons f t cs, .nil, es => by simp [Ber.componentsBy, Ber.components]
  | .cons f t cs, .cons v vs, es => by
    simp only [Ber.componentsBy, Ber.components, components_by lax cs, reads_by lax t]
    cases f.mode <;> rfl
theorem alternative_by (lax : Bool) : ∀ (cs : Comps) (i : Nat) (v : Val) (b : Octets),
    Ber.alternativeBy Ber.Contents lax cs i v b ↔ Ber.alternative lax cs i v b
  | .nil, _, _, _ => by simp [Ber.alternativeBy, Ber.alternative]
  | .cons _ t cs, 0, v, b => by simp only [Ber.alternativeBy, Ber.alternative]; exact reads_by lax t v b
  | .cons _ t cs, i + 1, v, b => by simp only [Ber.alternativeBy, Ber.alternative]; exact alternative_by lax cs i v b
end

/-! ## The three rates -/

/-- No tag. -/
def untagged (a : Attrs) : Bool := a.tags.isEmpty

/-- No tag, or one whose identifier is a single octet. -/
def oneShort (a : Attrs) : Bool := match a.tags with
  | [] => true
  | [t] => t.num < 31
  | _ => false

theorem element_two {c : Cls} {n : Nat} {k : Bool} {x b : Octets} (h : Ber.Element c n k x b) : 2 ≤ b.length := by
  obtain ⟨i, l, hi, hl, rfl⟩ := h
  have := (identifier_length _ _ k _ _ hi).2
  have := length_pos hl
  simp only [List.length_append]; omega

theorem rate_half : Rate Ber.Contents true untagged 3 where
  rate := .inr (.inl rfl)
  prim k v c c' t e e' h h' h1 h2 := element_one h1 h2 (contents_one k v c c' h h')
  any a v b b' ha h h' := by
    simp only [untagged, List.isEmpty_iff] at ha
    simp only [Ber.readsBy, ha] at h
    obtain ⟨_, _, _, _, _, rfl⟩ := h
    simp only [enc, encPrim, ha, wrap, Option.bind_some, Option.some.injEq] at h'
    subst h'
    omega

theorem any_rate {C : Prim → Val → Octets → Prop} {lax : Bool} {K : Nat} (hK : K = 2 ∨ K = 3 ∨ K = 4) (hl : lax = true → K = 4)
    (a : Attrs) (v : Val) (b b' : Octets) (ha : oneShort a = true) (h : Ber.readsBy C lax (.prim .any a) v b)
    (h' : enc false (.prim .any a) v = some b') : 2 * b'.length ≤ K * b.length := by
  have h0 : 2 * b.length ≤ K * b.length := Nat.mul_le_mul_right _ (by omega)
  simp only [Ber.readsBy] at h
  obtain ⟨c, n, k, x, he, h⟩ := h
  cases hts : a.tags with
  | nil =>
    simp only [hts] at h
    subst h
    simp only [enc, encPrim, hts, wrap, Option.bind_some, Option.some.injEq] at h'
    subst h'
    exact h0
  | cons t ts =>
    cases ts with
    | cons => simp [oneShort, hts] at ha
    | nil =>
      simp only [oneShort, hts, decide_eq_true_eq] at ha
      simp only [hts] at h
      rcases h with ⟨rfl, rfl, rfl⟩ | ⟨rfl, -, rfl⟩
      · simp only [enc, encPrim, hts, wrap, Option.bind_some, Option.bind_eq_some_iff] at h'
        obtain ⟨e, h1, h2⟩ := h'
        simp only [Option.some.injEq] at h2
        subst h2
        exact element_rate hK he h1 (Nat.mul_le_mul_right _ (by omega))
      · have := hl rfl; subst this
        simp only [enc, encPrim, hts, wrap, Option.bind_some, Option.bind_eq_some_iff] at h'
        obtain ⟨e, h1, h2⟩ := h'
        simp only [Option.some.injEq] at h2
        subst h2
        obtain ⟨l, h3, h4⟩ := tlv_length h1
        have h5 : (encTag t.cls (t.constructed || false) t.num).length = 1 := by simp [encTag, ha]
        have h6 := element_two he
        have h7 : l.length + 1 ≤ b.length := by
          simp only [encLen] at h3
          split at h3
          · simp only [Option.some.injEq] at h3; subst h3; simpa using h6
          · split at h3
            · simp at h3
            · simp only [Option.some.injEq] at h3; subst h3
              simp only [List.length_cons]
              omega
        omega

theorem rate_double : Rate Ber.Contents true oneShort 4 where
  rate := .inr (.inr rfl)
  prim k v c c' t e e' h h' h1 h2 := by have := element_one h1 h2 (contents_one k v c c' h h'); omega
  any a v b b' := any_rate (.inr (.inr rfl)) (fun _ => rfl) a v b b'

theorem rate_shortest : Rate Ber.ordinary false oneShort 2 where
  rate := .inl rfl
  prim k v c c' t e e' h h' h1 h2 :=
    element_rate (.inl rfl) h1 h2 (Nat.mul_le_mul_left _ (contents_ordinary k v c c' h h'))
  any a v b b' := any_rate (.inl rfl) (fun h => by simp at h) a v b b'

end Asn1
end Verif
