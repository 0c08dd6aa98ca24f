import Verif.Package.Types
import Verif.Asn1.Canon
import Verif.Asn1.Total
import Verif.Asn1.Sound

/-!
# Encoding and decoding the package's types

C12 to C19 and C32, for every class of the package and every value or input.
-/

namespace Verif
namespace Props
namespace Codec

open Asn1

/-- Largest number of octets a DER length field can announce. -/
abbrev maxOctets : Nat := 256 ^ 126

/-! ## General statements about one type -/

/-- Round trip, for a well-formed type. -/
theorem roundtrip_ty (t : Ty) (hw : t.wf = true) (v : Val) (hv : t.valid v = true) (hs : t.weight v < maxOctets) :
    ∃ b w, encode t v = some b ∧ t.same false v w ∧ (∀ rest, decode t (b ++ rest) = some (w, rest)) ∧
      (t.stable = true → encode t w = some b ∧ t.valid w = true) := by
  obtain ⟨b, hb, _⟩ := enc_total t false v hv hs
  rcases rt t false v b hw hv hb with ⟨_, h, _⟩ | ⟨_, x, w, h1, _, h3, h4, h5⟩
  · simp at h
  · refine ⟨b, w, hb, h4, ?_, fun hs => ⟨(h5 hs).1, (h5 hs).2.1⟩⟩
    intro rest
    simp only [decode, h1.2 rest, h3]

theorem encode_isTLV (t : Ty) (hw : t.wf = true) (v : Val) (b : Bytes) (hv : t.valid v = true)
    (hb : encode t v = some b) : ∃ x w, IsTLV b x ∧ decT t x = some w ∧ t.same false v w ∧
      (t.stable = true → t.valid w = true) := by
  rcases rt t false v b hw hv hb with ⟨_, h, _⟩ | ⟨_, x, w, h1, _, h3, h4, h5⟩
  · simp at h
  · exact ⟨x, w, h1, h3, h4, fun hs => (h5 hs).2.1⟩

/-! ## C12 -/

/-- C12: every legal value of every class outside `defective` encodes, and the encoding,
followed by anything, decodes to the same abstract value, leaving what follows. -/
theorem roundtrip (c : String × Ty) (hc : c ∈ Package.types) (hd : c.1 ∉ Package.defective)
    (v : Val) (hv : c.2.valid v = true) (hs : c.2.weight v < maxOctets) :
    ∃ b w, encode c.2 v = some b ∧ c.2.same false v w ∧ ∀ rest, decode c.2 (b ++ rest) = some (w, rest) := by
  obtain ⟨b, w, h1, h2, h3, _⟩ := roundtrip_ty c.2 (Package.wf_of_mem hc hd) v hv hs
  exact ⟨b, w, h1, h2, h3⟩

/-- C12: on types without collections the value comes back exactly. -/
theorem roundtrip_exact (c : String × Ty) (hc : c ∈ Package.types) (hd : c.1 ∉ Package.defective)
    (hr : c.2.rigid = true) (v : Val) (hv : c.2.valid v = true) (hs : c.2.weight v < maxOctets) :
    ∃ b, encode c.2 v = some b ∧ ∀ rest, decode c.2 (b ++ rest) = some (v, rest) := by
  obtain ⟨b, w, h1, h2, h3⟩ := roundtrip c hc hd v hv hs
  rw [← Ty.rigid_same c.2 false v w hr hv h2] at h3
  exact ⟨b, h1, h3⟩

theorem all2_eq {α : Type} {p : α → α → Prop} : ∀ (l m : List α), (∀ a ∈ l, ∀ b, p a b → a = b) → all2 p l m → l = m
  | [], [], _, _ => rfl
  | [], _ :: _, _, h => h.elim
  | _ :: _, [], _, h => h.elim
  | a :: l, b :: m, hp, h => by
    rw [hp a (by simp) b h.1, all2_eq l m (fun x hx => hp x (by simp [hx])) h.2]

mutual
theorem plain_same : ∀ (t : Ty) (ine : Bool) (v w : Val), t.plain ine v = true → t.same ine v w → v = w
  | .prim _ _, _, _, _, _, h => by simpa [Ty.same] using h
  | .bad _, _, _, _, _, h => by simp [Ty.same] at h
  | .seq _ _ cs, _, v, w, hp, h => by
    cases v <;> cases w <;> simp [Ty.same] at h
    rw [plain_sameC cs _ _ (by simpa [Ty.plain] using hp) h]
  | .choice _ cs, ine, v, w, hp, h => by
    cases v <;> cases w <;> simp [Ty.same] at h
    rw [h.1, plain_sameA cs ine _ _ _ (by simpa [Ty.plain] using hp) h.2]
  | .of s _ t, ine, v, w, hp, h => by
    cases v <;> cases w <;> simp [Ty.same, -Bool.not_and] at h
    rename_i vs ws
    obtain ⟨us, h1, h2⟩ := h
    simp only [Ty.plain, Bool.and_eq_true, Vals.every_iff, List.all_eq_true, Bool.or_eq_true] at hp
    have hus : us = vs.toList := by
      cases s with
      | false => simpa using h1
      | true =>
        simp only [if_true] at h1
        have hl : vs.toList.length ≤ 1 := by
          rw [Vals.length_toList]
          simpa using hp.2
        cases hv : vs.toList with
        | nil => rw [hv] at h1; exact h1.eq_nil
        | cons x l =>
          rw [hv] at h1 hl
          cases l with
          | nil => exact List.perm_singleton.1 h1
          | cons _ _ => simp at hl
    subst hus
    rw [List.filter_eq_self.2 (fun a ha => by simpa using (hp.1 a ha).2)] at h2
    have := all2_eq _ _ (fun a ha b hab => plain_same t ine a b (by simpa using (hp.1 a ha).1) hab) h2
    rw [← Vals.ofList_toList vs, this, Vals.ofList_toList]
theorem plain_sameC : ∀ (cs : Comps) (vs ws : Vals), cs.plain vs = true → cs.same vs ws → vs = ws
  | .nil, .nil, .nil, _, _ => rfl
  | .nil, .nil, .cons _ _, _, h => h.elim
  | .nil, .cons _ _, _, _, h => h.elim
  | .cons _ _ _, .nil, _, _, h => h.elim
  | .cons _ _ _, .cons _ _, .nil, _, h => h.elim
  | .cons f t cs, .cons v vs, .cons w ws, hp, h => by
    simp only [Comps.plain, Comps.same, Bool.and_eq_true] at hp h
    rw [plain_sameC cs vs ws hp.2 h.2]
    have : v = w := by
      cases hm : f.mode with
      | req =>
        simp only [hm] at hp h
        exact plain_same t false v w hp.1 h.1
      | opt =>
        simp only [hm, Bool.and_eq_true, Bool.not_eq_true'] at hp h
        rcases h.1 with ⟨h1, h2⟩ | ⟨h1, _⟩ | ⟨_, h2⟩
        · rw [h1, h2]
        · rw [hp.1.1] at h1; simp at h1
        · exact plain_same t true v w hp.1.2 h2
      | dflt d =>
        simp only [hm, Bool.or_eq_true, beq_iff_eq] at hp h
        rcases h.1 with ⟨h1, h2⟩ | ⟨h1, h2⟩
        · rw [h1, h2]
        · rcases hp.1 with h3 | h3
          · exact absurd h3 h1
          · exact plain_same t false v w h3 h2
    rw [this]
theorem plain_sameA : ∀ (cs : Comps) (ine : Bool) (i : Nat) (v w : Val), cs.plainAlt ine i v = true →
    cs.sameAlt ine i v w → v = w
  | .nil, _, _, _, _, _, h => h.elim
  | .cons _ t _, ine, 0, v, w, hp, h => by
    simp only [Comps.plainAlt, Comps.sameAlt] at hp h
    exact plain_same t ine v w hp h
  | .cons _ _ cs, ine, i + 1, v, w, hp, h => by
    simp only [Comps.plainAlt, Comps.sameAlt] at hp h
    exact plain_sameA cs ine i v w hp h
end

/-- C12, C17: a value in which no SET OF has two elements and no OPTIONAL component holds an empty
collection comes back exactly: nothing else is ever lost. -/
theorem roundtrip_plain (c : String × Ty) (hc : c ∈ Package.types) (hd : c.1 ∉ Package.defective)
    (v : Val) (hv : c.2.valid v = true) (hs : c.2.weight v < maxOctets) (hp : c.2.plain false v = true) :
    ∃ b, encode c.2 v = some b ∧ ∀ rest, decode c.2 (b ++ rest) = some (v, rest) := by
  obtain ⟨b, w, h1, h2, h3⟩ := roundtrip c hc hd v hv hs
  rw [← plain_same c.2 false v w hp h2] at h3
  exact ⟨b, h1, h3⟩

/-- C12: what was decoded encodes again to the same octets, and decoding those gives the same
value again (the check `assert encoder.encode(...) == substrate` of the dump tools). -/
theorem reencode (c : String × Ty) (hc : c ∈ Package.types) (hd : c.1 ∉ Package.defective)
    (v : Val) (b : Bytes) (hv : c.2.valid v = true) (hb : encode c.2 v = some b) :
    ∃ w, decode c.2 b = some (w, []) ∧ c.2.valid w = true ∧ encode c.2 w = some b := by
  rcases rt c.2 false v b (Package.wf_of_mem hc hd) hv hb with ⟨_, h, _⟩ | ⟨_, x, w, h1, _, h3, _, h5⟩
  · simp at h
  · obtain ⟨h6, h7, _⟩ := h5 (Package.stable_of_mem hc)
    exact ⟨w, by simp only [decode, h1.read, h3], h7, h6⟩

/-! ## C13 -/

/-- C13: two legal values have the same encoding exactly when they carry the same abstract value. -/
theorem encode_eq_iff (c : String × Ty) (hc : c ∈ Package.types) (hd : c.1 ∉ Package.defective)
    (v v' : Val) (b b' : Bytes) (hv : c.2.valid v = true) (hv' : c.2.valid v' = true)
    (hb : encode c.2 v = some b) (hb' : encode c.2 v' = some b') :
    b = b' ↔ ∃ w, c.2.valid w = true ∧ c.2.same false v w ∧ c.2.same false v' w := by
  have hw := Package.wf_of_mem hc hd
  have hst := Package.stable_of_mem hc
  constructor
  · intro h
    subst h
    obtain ⟨x, w, h1, h2, h3, h4⟩ := encode_isTLV c.2 hw v b hv hb
    obtain ⟨x', w', h1', h2', h3', _⟩ := encode_isTLV c.2 hw v' b hv' hb'
    have hx : x = x' := by
      have := h1.read
      rw [h1'.read] at this
      simp only [Option.some.injEq, Prod.mk.injEq, and_true] at this
      exact this.symm
    subst hx
    rw [h2] at h2'
    simp only [Option.some.injEq] at h2'
    subst h2'
    exact ⟨w, h4 hst, h3, h3'⟩
  · rintro ⟨w, h1, h2, h3⟩
    have e1 := enc_same c.2 false v w b hw hst hv h1 h2 hb
    have e2 := enc_same c.2 false v' w b' hw hst hv' h1 h3 hb'
    rw [e1] at e2
    simpa using e2

/-- C13: no encoding is a proper prefix of another one, even of another type. -/
theorem prefix_free (c d : String × Ty) (hc : c ∈ Package.types) (hd : d ∈ Package.types)
    (hc' : c.1 ∉ Package.defective) (hd' : d.1 ∉ Package.defective)
    (v u : Val) (b s : Bytes) (hv : c.2.valid v = true) (hu : d.2.valid u = true)
    (hb : encode c.2 v = some b) (hbs : encode d.2 u = some (b ++ s)) : s = [] := by
  obtain ⟨x, _, h1, _⟩ := encode_isTLV c.2 (Package.wf_of_mem hc hc') v b hv hb
  obtain ⟨y, _, h2, _⟩ := encode_isTLV d.2 (Package.wf_of_mem hd hd') u _ hu hbs
  have := h2.read
  rw [h1.2 s] at this
  simp only [Option.some.injEq, Prod.mk.injEq] at this
  exact this.2

/-! ## C14 -/

/-- C14: octets after the ones read are handed back, whatever they are (any type at all). -/
theorem decode_append (t : Ty) (b r s : Bytes) (v : Val) (h : decode t b = some (v, r)) :
    decode t (b ++ s) = some (v, r ++ s) := by
  unfold decode at h ⊢
  cases hr : readTLV b with
  | none => simp [hr] at h
  | some p =>
    obtain ⟨x, r'⟩ := p
    obtain ⟨_, _, h3, _⟩ := readTLV_suffix b x r' hr
    simp only [hr] at h
    rw [h3 s]
    simp only []
    cases hd : decT t x with
    | none => simp [hd] at h
    | some w =>
      simp only [hd, Option.some.injEq, Prod.mk.injEq] at h
      rw [h.1, h.2]

/-- C14: a proper prefix of anything that decodes completely is refused, by every type. -/
theorem prefix_refused (t u : Ty) (p s : Bytes) (v : Val) (h : decode t (p ++ s) = some (v, [])) (hs : s ≠ []) :
    decode u p = none := by
  cases hp : decode u p with
  | none => rfl
  | some q =>
    obtain ⟨w, r⟩ := q
    have h1 := decode_append u p r s w hp
    unfold decode at h h1
    cases hr : readTLV (p ++ s) with
    | none => simp [hr] at h
    | some x =>
      obtain ⟨x, r'⟩ := x
      simp only [hr] at h h1
      cases hd : decT t x with
      | none => simp [hd] at h
      | some _ =>
        simp only [hd, Option.some.injEq, Prod.mk.injEq] at h
        cases hd' : decT u x with
        | none => simp [hd'] at h1
        | some _ =>
          simp only [hd', Option.some.injEq, Prod.mk.injEq] at h1
          have : r ++ s = [] := by rw [← h1.2, h.2]
          exact absurd (List.append_eq_nil_iff.1 this).2 hs

/-- C14: a truncated encoding is refused. -/
theorem truncated_refused (c : String × Ty) (hc : c ∈ Package.types) (hd : c.1 ∉ Package.defective)
    (v : Val) (p s : Bytes) (hv : c.2.valid v = true) (hb : encode c.2 v = some (p ++ s)) (hs : s ≠ []) (u : Ty) :
    decode u p = none := by
  obtain ⟨w, h, _⟩ := reencode c hc hd v _ hv hb
  exact prefix_refused c.2 u p s w h hs

/-! ## C15 -/

/-- C15: every value the decoder returns, for any input and any type, has the right shape, all
its mandatory components, and meets the constraints on every primitive value inside it. -/
theorem decoded_admitted (t : Ty) (b r : Bytes) (v : Val) (h : decode t b = some (v, r)) : t.admits v = true := by
  unfold decode at h
  split at h
  · simp at h
  · split at h
    · simp at h
    · rename_i w hw
      simp only [Option.some.injEq, Prod.mk.injEq] at h
      rw [← h.1]
      exact decT_admits t _ w hw

/-! ## C32 -/

/-- C32: a successful decode consumes at least one octet, and depends on nothing beyond the
octets it consumed. -/
theorem decode_consumes (t : Ty) (b r : Bytes) (v : Val) (h : decode t b = some (v, r)) :
    ∃ p, p ≠ [] ∧ b = p ++ r ∧ ∀ s, decode t (p ++ s) = some (v, s) := by
  unfold decode at h
  cases hr : readTLV b with
  | none => simp [hr] at h
  | some q =>
    obtain ⟨x, r'⟩ := q
    obtain ⟨h1, h2, h3, _⟩ := readTLV_suffix b x r' hr
    simp only [hr] at h
    cases hd : decT t x with
    | none => simp [hd] at h
    | some w =>
      simp only [hd, Option.some.injEq, Prod.mk.injEq] at h
      obtain ⟨hv, hr'⟩ := h
      subst hv; subst hr'
      refine ⟨x.raw, h2, h1, ?_⟩
      intro s
      -- the element's own octets already read as the element
      have hraw : readTLV x.raw = some (x, []) := readTLV_raw b x r' hr
      have hs := (readTLV_suffix x.raw x [] hraw).2.2.1 s
      simp only [decode, List.nil_append] at hs ⊢
      rw [hs]
      simp only [hd]

/-- C32: and so the rest is strictly shorter than the input. -/
theorem decode_shorter (t : Ty) (b r : Bytes) (v : Val) (h : decode t b = some (v, r)) : r.length < b.length := by
  obtain ⟨p, hp, hb, _⟩ := decode_consumes t b r v h
  have := List.length_pos_iff.2 hp
  rw [hb, List.length_append]; omega

/-! ## C18 -/

/-- C18: the encoding of a SET OF does not depend on the order of its elements. -/
theorem setOf_order (a : Attrs) (t : Ty) (hw : t.wf = true) (vs us : Vals) (hp : vs.toList.Perm us.toList)
    (hv : ∀ v ∈ vs.toList, t.valid v = true) (ine : Bool) :
    enc ine (.of true a t) (.list vs) = enc ine (.of true a t) (.list us) := by
  rw [enc_of_eq, enc_of_eq]
  have hlen : vs.length = us.length := by
    rw [← Vals.length_toList, ← Vals.length_toList, hp.length_eq]
  rw [hlen]
  split
  · have key : ∀ (l l' : List Val) (cs : List Bytes), l.Perm l' → mapOpt (enc ine t) l = some cs →
        ∃ ds, mapOpt (enc ine t) l' = some ds ∧ cs.Perm ds := by
      intro l l' cs h1 h2
      rw [mapOpt_all2] at h2
      obtain ⟨ds, h3, h4⟩ := all2_perm h1 h2
      exact ⟨ds, by rw [mapOpt_all2]; exact h4, h3⟩
    cases hc : mapOpt (enc ine t) vs.toList with
    | none =>
      cases hd : mapOpt (enc ine t) us.toList with
      | none => rfl
      | some ds =>
        obtain ⟨cs, h1, _⟩ := key _ _ ds hp.symm hd
        rw [hc] at h1; simp at h1
    | some cs =>
      obtain ⟨ds, h1, h2⟩ := key _ _ cs hp hc
      rw [h1]
      simp only [if_true]
      have : (sortB cs).flatten = (sortB ds).flatten := by
        rw [← sortB_filter cs, ← sortB_filter ds]
        congr 1
        apply sortB_perm (h2.filter _)
        intro c hcm
        rw [mapOpt_all2] at hc
        obtain ⟨v, hv1, hv2⟩ := all2_mem_right hc c (List.mem_filter.1 hcm).1
        exact enc_isTLV t ine v c hw (hv v hv1) hv2 (by
          have := (List.mem_filter.1 hcm).2
          cases c <;> simp_all)
      rw [this]
  · rfl

/-- C18 for the SET OF classes of the package. -/
theorem setOf_order_package (n : String) (a : Attrs) (t : Ty) (hc : (n, Ty.of true a t) ∈ Package.types)
    (hd : n ∉ Package.defective) (vs us : Vals) (hp : vs.toList.Perm us.toList)
    (hv : (Ty.of true a t).valid (.list vs) = true) :
    encode (.of true a t) (.list vs) = encode (.of true a t) (.list us) := by
  have hw := Package.wf_of_mem hc hd
  simp only [Ty.wf, Bool.and_eq_true] at hw
  simp only [Ty.valid, Bool.and_eq_true, Vals.every_iff, List.all_eq_true] at hv
  exact setOf_order a t hw.2 vs us hp hv.1 false

/-! ## C19 -/

/-- C19: in a well-formed CHOICE, an element whose tag fits alternative `i` is decoded as
alternative `i` and nothing else. -/
theorem choice_dispatch (cs : Comps) (hp : cs.pairOk = true) (i : Nat) (f : Field) (t : Ty) (x : TLV)
    (hi : cs.get? i = some (f, t)) (hm : t.matches x = true) (k : Nat) :
    decAlt cs k x = (decT t x).map (.alt (k + i)) := by
  induction cs using Comps.rec (motive_1 := fun _ => True) generalizing i k with
  | prim => trivial
  | seq => trivial
  | of => trivial
  | choice => trivial
  | bad => trivial
  | nil => simp [Comps.get?] at hi
  | cons g u cs _ ih =>
    simp only [Comps.pairOk, Bool.and_eq_true] at hp
    cases i with
    | zero =>
      simp only [Comps.get?, Option.some.injEq, Prod.mk.injEq] at hi
      obtain ⟨_, hu⟩ := hi
      subst hu
      simp only [decAlt, hm, if_true, Nat.add_zero]
      cases decT u x <;> rfl
    | succ i =>
      simp only [Comps.get?] at hi
      have hcm : cs.matches x = true := Comps.matches_of_get cs i f t x hi hm
      have hu := Ty.disjointAll_matches' u x cs hp.1 hcm
      simp only [decAlt, hu, Bool.false_eq_true, if_false]
      rw [ih hp.2 i hi (k + 1)]
      have : k + 1 + i = k + (i + 1) := by omega
      rw [this]

/-- C19: in a well-formed SEQUENCE, an element that a later component of the window may want is
never taken by an optional or defaulted component before it. -/
theorem optional_dispatch (f : Field) (t : Ty) (cs : Comps) (hs : (Comps.cons f t cs).seqOk = true)
    (hm : f.mode.isReq = false) (x : TLV) (xs : List TLV) (hx : cs.windowMatches x = true) :
    decComps (.cons f t cs) (x :: xs) =
      f.mode.missing.bind (fun v => (decComps cs (x :: xs)).map (.cons v)) := by
  simp only [Comps.seqOk, hm, Bool.false_or, Bool.and_eq_true] at hs
  have := Ty.disjointWindow_matches t x cs hs.1 hx
  simp only [decComps, hm, this, hx, Bool.false_or, Bool.not_true, Bool.and_false, Bool.false_eq_true, if_false]
  cases f.mode.missing <;> cases decComps cs (x :: xs) <;> rfl

mutual
theorem wf_nodes : ∀ t : Ty, t.wf = true → ∀ u ∈ t.nodes, u.wf = true
  | .prim _ _, h, u, hu => by
    simp only [Ty.nodes, List.mem_singleton] at hu
    rw [hu]; exact h
  | .seq _ _ cs, h, u, hu => by
    simp only [Ty.nodes, List.mem_cons] at hu
    rcases hu with hu | hu
    · rw [hu]; exact h
    · simp only [Ty.wf, Bool.and_eq_true] at h
      exact wf_nodesC cs h.1.1.2 u hu
  | .of _ _ t, h, u, hu => by
    simp only [Ty.nodes, List.mem_cons] at hu
    rcases hu with hu | hu
    · rw [hu]; exact h
    · simp only [Ty.wf, Bool.and_eq_true] at h
      exact wf_nodes t h.2 u hu
  | .choice _ cs, h, u, hu => by
    simp only [Ty.nodes, List.mem_cons] at hu
    rcases hu with hu | hu
    · rw [hu]; exact h
    · simp only [Ty.wf, Bool.and_eq_true] at h
      exact wf_nodesC cs h.1.2 u hu
  | .bad _, h, _, _ => by simp [Ty.wf] at h
theorem wf_nodesC : ∀ cs : Comps, cs.wf = true → ∀ u ∈ cs.nodes, u.wf = true
  | .nil, _, u, hu => by simp [Comps.nodes] at hu
  | .cons _ t cs, h, u, hu => by
    simp only [Comps.nodes, List.mem_append] at hu
    simp only [Comps.wf, Bool.and_eq_true] at h
    rcases hu with hu | hu
    · exact wf_nodes t h.1 u hu
    · exact wf_nodesC cs h.2 u hu
end

theorem disjointAll_get (t : Ty) : ∀ (cs : Comps) (j : Nat) (g : Field) (u : Ty), t.disjointAll cs = true →
    cs.get? j = some (g, u) → t.disjoint u = true
  | .nil, _, _, _, _, h => by simp [Comps.get?] at h
  | .cons _ w cs, 0, g, u, h, hj => by
    simp only [Comps.get?, Option.some.injEq, Prod.mk.injEq] at hj
    simp only [Ty.disjointAll, Bool.and_eq_true] at h
    rw [← hj.2]; exact h.1
  | .cons _ w cs, j + 1, g, u, h, hj => by
    simp only [Ty.disjointAll, Bool.and_eq_true] at h
    exact disjointAll_get t cs j g u h.2 hj

theorem pairOk_get : ∀ (cs : Comps) (i j : Nat) (f g : Field) (t u : Ty), cs.pairOk = true → i < j →
    cs.get? i = some (f, t) → cs.get? j = some (g, u) → t.disjoint u = true
  | .nil, _, _, _, _, _, _, _, _, h, _ => by simp [Comps.get?] at h
  | .cons _ w cs, 0, j + 1, f, g, t, u, h, _, hi, hj => by
    simp only [Comps.get?, Option.some.injEq, Prod.mk.injEq] at hi
    simp only [Comps.pairOk, Bool.and_eq_true] at h
    rw [← hi.2]; exact disjointAll_get w cs j g u h.1 hj
  | .cons _ w cs, i + 1, j + 1, f, g, t, u, h, hij, hi, hj => by
    simp only [Comps.pairOk, Bool.and_eq_true] at h
    exact pairOk_get cs i j f g t u h.2 (by omega) hi hj
  | .cons _ _ _, i, 0, _, _, _, _, _, hij, _, _ => by omega

/-- C19: in every CHOICE and SET inside every class outside `defective`, no element fits two
alternatives by its tag. -/
theorem alternatives_disjoint (c : String × Ty) (hc : c ∈ Package.types) (hd : c.1 ∉ Package.defective)
    (cs : Comps) (a : Attrs) (hn : Ty.choice a cs ∈ c.2.nodes ∨ Ty.seq true a cs ∈ c.2.nodes)
    (i j : Nat) (f g : Field) (t u : Ty) (hi : cs.get? i = some (f, t)) (hj : cs.get? j = some (g, u)) (hij : i ≠ j)
    (x : TLV) (ht : t.matches x = true) : u.matches x = false := by
  have hp : cs.pairOk = true := by
    rcases hn with hn | hn
    · have := wf_nodes c.2 (Package.wf_of_mem hc hd) _ hn
      simp only [Ty.wf, Bool.and_eq_true] at this
      exact this.2
    · have := wf_nodes c.2 (Package.wf_of_mem hc hd) _ hn
      simp only [Ty.wf, Bool.and_eq_true, if_true] at this
      exact this.1.2.1
  rcases Nat.lt_or_gt_of_ne hij with h | h
  · exact Ty.disjoint_matches t u x (pairOk_get cs i j f g t u hp h hi hj) ht
  · have := pairOk_get cs j i g f u t hp h hj hi
    cases hu : u.matches x with
    | false => rfl
    | true => rw [Ty.disjoint_matches u t x this hu] at ht; simp at ht

theorem window_get (t : Ty) : ∀ (cs : Comps) (j : Nat) (g : Field) (u : Ty), t.disjointWindow cs = true →
    cs.get? j = some (g, u) → (∀ k < j, ∀ h w, cs.get? k = some (h, w) → h.mode.isReq = false) → t.disjoint u = true
  | .nil, _, _, _, _, h, _ => by simp [Comps.get?] at h
  | .cons _ w cs, 0, g, u, h, hj, _ => by
    simp only [Comps.get?, Option.some.injEq, Prod.mk.injEq] at hj
    simp only [Ty.disjointWindow, Bool.and_eq_true] at h
    rw [← hj.2]; exact h.1
  | .cons q w cs, j + 1, g, u, h, hj, hk => by
    simp only [Ty.disjointWindow, Bool.and_eq_true, Bool.or_eq_true] at h
    have hq := hk 0 (by omega) q w rfl
    rcases h.2 with h2 | h2
    · rw [hq] at h2; simp at h2
    · exact window_get t cs j g u h2 hj (fun k hkj r v hr => hk (k + 1) (by omega) r v hr)

theorem seqOk_get : ∀ (cs : Comps) (i j : Nat) (f g : Field) (t u : Ty), cs.seqOk = true → i < j →
    cs.get? i = some (f, t) → cs.get? j = some (g, u) →
    (∀ k, i ≤ k → k < j → ∀ h w, cs.get? k = some (h, w) → h.mode.isReq = false) → t.disjoint u = true
  | .nil, _, _, _, _, _, _, _, _, h, _, _ => by simp [Comps.get?] at h
  | .cons q w cs, 0, j + 1, f, g, t, u, h, _, hi, hj, hk => by
    simp only [Comps.get?, Option.some.injEq, Prod.mk.injEq] at hi
    simp only [Comps.seqOk, Bool.and_eq_true, Bool.or_eq_true] at h
    have hq := hk 0 (by omega) (by omega) q w rfl
    rcases h.1 with h2 | h2
    · rw [hq] at h2; simp at h2
    · rw [← hi.2]
      exact window_get w cs j g u h2 hj (fun k hkj r v hr => hk (k + 1) (by omega) (by omega) r v hr)
  | .cons _ w cs, i + 1, j + 1, f, g, t, u, h, hij, hi, hj, hk => by
    simp only [Comps.seqOk, Bool.and_eq_true] at h
    exact seqOk_get cs i j f g t u h.2 (by omega) hi hj
      (fun k h1 h2 r v hr => hk (k + 1) (by omega) (by omega) r v hr)
  | .cons _ _ _, i, 0, _, _, _, _, _, hij, _, _, _ => by omega

/-- C19: in every SEQUENCE inside every class outside `defective`, no element fits both an
optional or defaulted component and a component that can follow it directly, that is with only
optional or defaulted ones between them. -/
theorem optionals_disjoint (c : String × Ty) (hc : c ∈ Package.types) (hd : c.1 ∉ Package.defective)
    (cs : Comps) (a : Attrs) (hn : Ty.seq false a cs ∈ c.2.nodes)
    (i j : Nat) (f g : Field) (t u : Ty) (hi : cs.get? i = some (f, t)) (hj : cs.get? j = some (g, u)) (hij : i < j)
    (hk : ∀ k, i ≤ k → k < j → ∀ h w, cs.get? k = some (h, w) → h.mode.isReq = false)
    (x : TLV) (ht : t.matches x = true) : u.matches x = false := by
  have := wf_nodes c.2 (Package.wf_of_mem hc hd) _ hn
  simp only [Ty.wf, Bool.and_eq_true, Bool.false_eq_true, if_false] at this
  exact Ty.disjoint_matches t u x (seqOk_get cs i j f g t u this.1.2 hij hi hj hk) ht

/-! ## C16 -/

/-- C16: leaving a defaulted component unset and setting it to its default give the same contents. -/
theorem encComps_default : ∀ (cs : Comps) (vs : Vals) (i : Nat) (f : Field) (t : Ty) (d : Val),
    cs.get? i = some (f, t) → f.mode = .dflt d → encComps cs (vs.set i .absent) = encComps cs (vs.set i d)
  | .nil, _, _, _, _, _, h, _ => by simp [Comps.get?] at h
  | .cons _ _ _, .nil, 0, _, _, _, _, _ => rfl
  | .cons _ _ _, .nil, _ + 1, _, _, _, _, _ => rfl
  | .cons g u cs, .cons v vs, 0, f, t, d, h, hm => by
    simp only [Comps.get?, Option.some.injEq, Prod.mk.injEq] at h
    obtain ⟨h1, h2⟩ := h
    subst h1; subst h2
    simp only [Vals.set]
    cases he : encComps cs vs with
    | none => simp [encComps, he]
    | some ps =>
      rw [encComps_skip he (by simp [hm]) (Or.inl rfl), encComps_skip he (by simp [hm]) (Or.inr hm)]
  | .cons g u cs, .cons v vs, i + 1, f, t, d, h, hm => by
    simp only [Comps.get?] at h
    simp only [Vals.set]
    have ih := encComps_default cs vs i f t d h hm
    simp only [encComps, ih]

/-- C16, encoding side, for a SEQUENCE or SET without a constraint of its own. -/
theorem default_omitted_ty (ine s : Bool) (a : Attrs) (cs : Comps) (hs : a.spec.truthy = false) (vs : Vals) (i : Nat)
    (f : Field) (t : Ty) (d : Val) (hi : cs.get? i = some (f, t)) (hm : f.mode = .dflt d) :
    enc ine (.seq s a cs) (.record (vs.set i .absent)) = enc ine (.seq s a cs) (.record (vs.set i d)) := by
  simp only [enc, encComps_default cs vs i f t d hi hm, Constraint.ok_of_not_truthy a.spec _ hs, if_true]

def hasDefault : Comps → Bool
  | .nil => false
  | .cons f _ cs => (match f.mode with
    | .dflt _ => true
    | _ => false) || hasDefault cs

/-- A SEQUENCE or SET with defaults carries no constraint of its own, and its defaults are legal. -/
def defaultsOk : Ty → Bool
  | .seq _ a cs => !(a.spec.truthy && hasDefault cs) && cs.toList.all (fun p => match p.1.mode with
      | .dflt d => p.2.valid d
      | _ => true)
  | _ => true

theorem defaults_table : Package.types.all (fun c => c.2.each defaultsOk) = true := by decide +kernel

theorem hasDefault_get : ∀ (cs : Comps) (i : Nat) (f : Field) (t : Ty) (d : Val), cs.get? i = some (f, t) →
    f.mode = .dflt d → hasDefault cs = true
  | .nil, _, _, _, _, h, _ => by simp [Comps.get?] at h
  | .cons _ _ _, 0, _, _, _, h, hm => by
    simp only [Comps.get?, Option.some.injEq, Prod.mk.injEq] at h
    simp [hasDefault, h.1, hm]
  | .cons _ _ cs, i + 1, f, t, d, h, hm => by
    simp [hasDefault, hasDefault_get cs i f t d h hm]

theorem get_mem_toList : ∀ (cs : Comps) (i : Nat) (p : Field × Ty), cs.get? i = some p → p ∈ cs.toList
  | .nil, _, _, h => by simp [Comps.get?] at h
  | .cons _ _ _, 0, _, h => by simp only [Comps.get?, Option.some.injEq] at h; simp [Comps.toList, h]
  | .cons _ _ cs, i + 1, p, h => by simp [Comps.toList, get_mem_toList cs i p h]

theorem defaultsOk_mem (c : String × Ty) (hc : c ∈ Package.types) (u : Ty) (hn : u ∈ c.2.nodes) : defaultsOk u = true := by
  have := List.all_eq_true.1 defaults_table c hc
  rw [Ty.each_nodes] at this
  exact List.all_eq_true.1 this u hn

/-- C16: in every class of the package, at every depth, every declared default is a legal value of
the component's type. -/
theorem defaults_legal (c : String × Ty) (hc : c ∈ Package.types) (s : Bool) (a : Attrs) (cs : Comps)
    (hn : Ty.seq s a cs ∈ c.2.nodes) (i : Nat) (f : Field) (t : Ty) (d : Val)
    (hi : cs.get? i = some (f, t)) (hm : f.mode = .dflt d) : t.valid d = true := by
  have := defaultsOk_mem c hc _ hn
  simp only [defaultsOk, Bool.and_eq_true, List.all_eq_true] at this
  have h := this.2 (f, t) (get_mem_toList cs i _ hi)
  simpa only [hm] using h

/-- C16: in every class of the package, at every depth, a record with a defaulted component
unset encodes like the record with that component set to its default. -/
theorem default_omitted (c : String × Ty) (hc : c ∈ Package.types) (ine s : Bool) (a : Attrs) (cs : Comps)
    (hn : Ty.seq s a cs ∈ c.2.nodes) (vs : Vals) (i : Nat) (f : Field) (t : Ty) (d : Val)
    (hi : cs.get? i = some (f, t)) (hm : f.mode = .dflt d) :
    enc ine (.seq s a cs) (.record (vs.set i .absent)) = enc ine (.seq s a cs) (.record (vs.set i d)) := by
  have := defaultsOk_mem c hc _ hn
  simp only [defaultsOk, hasDefault_get cs i f t d hi hm, Bool.and_true, Bool.and_eq_true, Bool.not_eq_true'] at this
  exact default_omitted_ty ine s a cs this.1 vs i f t d hi hm

theorem same_default : ∀ (cs : Comps) (vs ws : Vals) (i : Nat) (f : Field) (t : Ty) (d : Val), cs.same vs ws →
    cs.get? i = some (f, t) → f.mode = .dflt d → vs.get? i = some d → ws.get? i = some d
  | .nil, _, _, _, _, _, _, _, h, _, _ => by simp [Comps.get?] at h
  | .cons g u cs, .cons v vs, .cons w ws, 0, f, t, d, hs, h, hm, hv => by
    simp only [Comps.get?, Option.some.injEq, Prod.mk.injEq] at h
    simp only [Vals.get?, Option.some.injEq] at hv
    simp only [Comps.same, h.1, hm] at hs
    rcases hs.1 with h1 | h1
    · rw [Vals.get?, h1.2]
    · exact absurd hv h1.1
  | .cons g u cs, .cons v vs, .cons w ws, i + 1, f, t, d, hs, h, hm, hv => by
    simp only [Comps.same] at hs
    exact same_default cs vs ws i f t d hs.2 h hm hv
  | .cons _ _ _, .nil, _, i, _, _, _, _, _, _, hv => by cases i <;> simp [Vals.get?] at hv
  | .cons _ _ _, .cons _ _, .nil, _, _, _, _, hs, _, _, _ => hs.elim

theorem valid_get_set : ∀ (cs : Comps) (vs : Vals) (i : Nat) (f : Field) (t : Ty) (d : Val), cs.valid vs = true →
    cs.get? i = some (f, t) → (vs.set i d).get? i = some d
  | .nil, _, _, _, _, _, _, h => by simp [Comps.get?] at h
  | .cons _ _ _, .nil, _, _, _, _, hv, _ => by simp [Comps.valid] at hv
  | .cons _ _ _, .cons _ _, 0, _, _, _, _, _ => rfl
  | .cons g u cs, .cons v vs, i + 1, f, t, d, hv, h => by
    simp only [Comps.valid, Bool.and_eq_true] at hv
    exact valid_get_set cs vs i f t d hv.2 h

theorem valid_set_default : ∀ (cs : Comps) (vs : Vals) (i : Nat) (f : Field) (t : Ty) (d : Val), cs.valid vs = true →
    cs.get? i = some (f, t) → f.mode = .dflt d → cs.valid (vs.set i d) = true
  | .nil, _, _, _, _, _, _, h, _ => by simp [Comps.get?] at h
  | .cons _ _ _, .nil, _, _, _, _, hv, _, _ => by simp [Comps.valid] at hv
  | .cons g u cs, .cons v vs, 0, f, t, d, hv, h, hm => by
    simp only [Comps.get?, Option.some.injEq, Prod.mk.injEq] at h
    simp only [Comps.valid, Vals.set, h.1, hm, Bool.and_eq_true] at hv ⊢
    exact ⟨by simp, hv.2⟩
  | .cons g u cs, .cons v vs, i + 1, f, t, d, hv, h, hm => by
    simp only [Comps.valid, Vals.set, Bool.and_eq_true] at hv ⊢
    exact ⟨hv.1, valid_set_default cs vs i f t d hv.2 h hm⟩

/-- C16, decoding side: take a legal record of a class and unset a defaulted component.  It
encodes, and decoding gives a record with the default there. -/
theorem default_filled (n : String) (s : Bool) (a : Attrs) (cs : Comps)
    (hc : (n, Ty.seq s a cs) ∈ Package.types) (hd : n ∉ Package.defective)
    (vs : Vals) (i : Nat) (f : Field) (t : Ty) (d : Val) (hi : cs.get? i = some (f, t)) (hm : f.mode = .dflt d)
    (hv : (Ty.seq s a cs).valid (.record vs) = true)
    (hs : (Ty.seq s a cs).weight (.record (vs.set i d)) < maxOctets) :
    ∃ b ws, encode (.seq s a cs) (.record (vs.set i .absent)) = some b ∧
      ws.get? i = some d ∧ ∀ rest, decode (.seq s a cs) (b ++ rest) = some (.record ws, rest) := by
  have hself : Ty.seq s a cs ∈ (Ty.seq s a cs).nodes := by simp [Ty.nodes]
  have hdo := defaultsOk_mem _ hc _ hself
  simp only [defaultsOk, hasDefault_get cs i f t d hi hm, Bool.and_true, Bool.and_eq_true, Bool.not_eq_true'] at hdo
  simp only [Ty.valid, Bool.and_eq_true] at hv
  have hv' : (Ty.seq s a cs).valid (.record (vs.set i d)) = true := by
    simp only [Ty.valid, valid_set_default cs vs i f t d hv.1 hi hm, Constraint.ok_of_not_truthy a.spec _ hdo.1,
      Bool.and_self]
  obtain ⟨b, w, h1, h2, h3⟩ := roundtrip _ hc hd _ hv' hs
  cases w with
  | record ws =>
    refine ⟨b, ws, ?_, ?_, h3⟩
    · rw [← h1]; exact default_omitted_ty false s a cs hdo.1 vs i f t d hi hm
    · simp only [Ty.same] at h2
      exact same_default cs _ ws i f t d h2 hi hm (valid_get_set cs vs i f t d hv.1 hi)
  | _ => simp [Ty.same] at h2

/-! ## C17 -/

theorem encComps_optional : ∀ (cs : Comps) (vs : Vals) (i : Nat) (f : Field) (t : Ty) (v : Val), cs.wf = true →
    cs.get? i = some (f, t) → f.mode = .opt → t.valid v = true → t.vanish v = true → t.weight v < maxOctets →
    (encComps cs (vs.set i v)).map (·.filter (fun p => !p.2.isEmpty)) =
      (encComps cs (vs.set i .absent)).map (·.filter (fun p => !p.2.isEmpty))
  | .nil, _, _, _, _, _, _, h, _, _, _, _ => by simp [Comps.get?] at h
  | .cons _ _ _, .nil, 0, _, _, _, _, _, _, _, _, _ => rfl
  | .cons _ _ _, .nil, _ + 1, _, _, _, _, _, _, _, _, _ => rfl
  | .cons g u cs, .cons v' vs, 0, f, t, v, hw, h, hm, hv, hvan, hs => by
    simp only [Comps.get?, Option.some.injEq, Prod.mk.injEq] at h
    obtain ⟨h1, h2⟩ := h
    subst h1; subst h2
    simp only [Comps.wf, Bool.and_eq_true] at hw
    simp only [Vals.set]
    cases he : encComps cs vs with
    | none => simp [encComps, he]
    | some ps =>
      obtain ⟨b, hb, _⟩ := enc_total u true v hv hs
      have hbe := enc_empty_iff u true v b hw.1 hv hb
      rw [hvan] at hbe
      rw [encComps_skip he (by simp [hm]) (Or.inl rfl),
        encComps_put he (Ty.valid_ne_absent u v hv) (by simp [hm]) (by rw [hm]; exact hb)]
      simp [hbe]
  | .cons g u cs, .cons v' vs, i + 1, f, t, v, hw, h, hm, hv, hvan, hs => by
    simp only [Comps.get?] at h
    simp only [Comps.wf, Bool.and_eq_true] at hw
    simp only [Vals.set]
    have ih := encComps_optional cs vs i f t v hw.2 h hm hv hvan hs
    cases h1 : encComps cs (vs.set i v) with
    | none =>
      cases h2 : encComps cs (vs.set i .absent) with
      | none => simp [encComps, h1, h2]
      | some qs => rw [h1, h2] at ih; simp at ih
    | some ps =>
      cases h2 : encComps cs (vs.set i .absent) with
      | none => rw [h1, h2] at ih; simp at ih
      | some qs =>
        rw [h1, h2] at ih
        simp only [Option.map_some, Option.some.injEq] at ih
        by_cases hskip : g.mode ≠ .req ∧ (v' = .absent ∨ g.mode = .dflt v')
        · rw [encComps_skip h1 hskip.1 hskip.2, encComps_skip h2 hskip.1 hskip.2]
          simp [ih]
        · by_cases ha : v' = .absent
          · have hreq : g.mode = .req := by
              cases hg : g.mode <;> simp_all
            subst ha
            simp [encComps, h1, h2, hreq]
          · have hnd : g.mode ≠ .dflt v' := by
              intro hg; exact hskip ⟨by simp [hg], Or.inr hg⟩
            cases hb : enc g.mode.isOpt u v' with
            | none =>
              have e : ∀ us rs, encComps cs us = some rs → encComps (.cons g u cs) (.cons v' us) = none := by
                intro us rs hr
                cases hx : encComps (.cons g u cs) (.cons v' us) with
                | none => rfl
                | some zs =>
                  obtain ⟨_, _, hz⟩ := encComps_cons hx
                  rcases hz with ⟨_, hz, _⟩ | ⟨_, _, b, hz, _⟩
                  · rcases hz with hz | hz
                    · exact absurd hz ha
                    · exact absurd hz hnd
                  · rw [hb] at hz; simp at hz
              rw [e _ _ h1, e _ _ h2]
            | some b =>
              rw [encComps_put h1 ha hnd hb, encComps_put h2 ha hnd hb]
              simp only [Option.map_some, List.filter_cons, ih]

/-- C17: inside a well-formed SEQUENCE or SET without a constraint of its own, an OPTIONAL
component holding an empty collection encodes like one that is not set. -/
theorem optional_empty (ine s : Bool) (a : Attrs) (cs : Comps) (hw : (Ty.seq s a cs).wf = true)
    (hs : a.spec.truthy = false) (vs : Vals) (i : Nat) (f : Field) (t : Ty) (v : Val) (hi : cs.get? i = some (f, t))
    (hm : f.mode = .opt) (hv : t.valid v = true) (hvan : t.vanish v = true) (hsz : t.weight v < maxOctets) :
    enc ine (.seq s a cs) (.record (vs.set i v)) = enc ine (.seq s a cs) (.record (vs.set i .absent)) := by
  simp only [Ty.wf, Bool.and_eq_true] at hw
  have key := encComps_optional cs vs i f t v hw.1.1.2 hi hm hv hvan hsz
  simp only [enc, Constraint.ok_of_not_truthy a.spec _ hs, if_true]
  cases h1 : encComps cs (vs.set i v) with
  | none =>
    cases h2 : encComps cs (vs.set i .absent) with
    | none => rfl
    | some qs => rw [h1, h2] at key; simp at key
  | some ps =>
    cases h2 : encComps cs (vs.set i .absent) with
    | none => rw [h1, h2] at key; simp at key
    | some qs =>
      rw [h1, h2] at key
      simp only [Option.map_some, Option.some.injEq] at key
      have e1 := content_filter s ps
      have e2 := content_filter s qs
      rw [key] at e1
      rw [e1] at e2
      simp only [e2]

/-- C17: at top level nothing vanishes: every encoding has at least one octet. -/
theorem encode_nonempty (c : String × Ty) (hc : c ∈ Package.types) (hd : c.1 ∉ Package.defective) (v : Val) (b : Bytes)
    (hv : c.2.valid v = true) (hb : encode c.2 v = some b) : b ≠ [] := by
  obtain ⟨x, _, h, _⟩ := encode_isTLV c.2 (Package.wf_of_mem hc hd) v b hv hb
  exact h.1

/-! ## The hypotheses are met by real values -/

namespace Examples

/-- A relative distinguished name: `C=US + O=A`, not in DER order. -/
def rdn : Val := .list (.ofList [
  .record (.ofList [.oid [2, 5, 4, 6], .octets [19, 2, 85, 83]]),
  .record (.ofList [.oid [2, 5, 4, 10], .octets [12, 1, 65]])])

/-- A distinguished name, as `rfc5280.Name`. -/
def name : Val := .alt 0 (.list (.ofList [rdn]))

/-- sha256WithRSAEncryption with NULL parameters, as `rfc5280.AlgorithmIdentifier`. -/
def alg : Val := .record (.ofList [.oid [1, 2, 840, 113549, 1, 1, 11], .octets [5, 0]])

/-- `rfc5280.Extension` with `critical` at its default. -/
def ext : Val := .record (.ofList [.oid [2, 5, 29, 14], .int 0, .octets [4, 1, 7]])

theorem name_mem : ("rfc5280.Name", Rfc5280.Name.call.ty) ∈ Package.types :=
  Package.mem_types (m := Rfc5280.asModule) (c := ("rfc5280.Name", Rfc5280.Name))
    (by simp [Package.modules]) (by simp [Rfc5280.asModule, Rfc5280.classes])
theorem alg_mem : ("rfc5280.AlgorithmIdentifier", Rfc5280.AlgorithmIdentifier.call.ty) ∈ Package.types :=
  Package.mem_types (m := Rfc5280.asModule) (c := ("rfc5280.AlgorithmIdentifier", Rfc5280.AlgorithmIdentifier))
    (by simp [Package.modules]) (by simp [Rfc5280.asModule, Rfc5280.classes])

-- C12, C13, C14, C17: legal, of reasonable size, not defective; and not `plain`, so that SET OF order matters
example : Rfc5280.Name.call.ty.valid name = true ∧ Rfc5280.Name.call.ty.weight name < maxOctets ∧
    "rfc5280.Name" ∉ Package.defective ∧ Rfc5280.Name.call.ty.plain false name = false := by decide +kernel
-- C12: the exact form applies to this one
example : Rfc5280.AlgorithmIdentifier.call.ty.valid alg = true ∧
    Rfc5280.AlgorithmIdentifier.call.ty.weight alg < maxOctets ∧
    Rfc5280.AlgorithmIdentifier.call.ty.rigid = true ∧
    Rfc5280.AlgorithmIdentifier.call.ty.plain false alg = true ∧
    "rfc5280.AlgorithmIdentifier" ∉ Package.defective := by decide +kernel
-- the name encodes to what DER prescribes, with the organisation first
example : encode Rfc5280.Name.call.ty name =
    some [48, 23, 49, 21, 48, 8, 6, 3, 85, 4, 10, 12, 1, 65, 48, 9, 6, 3, 85, 4, 6, 19, 2, 85, 83] := by decide +kernel
-- C14: decoding leaves what follows alone, a prefix is refused
example : decode Rfc5280.AlgorithmIdentifier.call.ty ([48, 3, 6, 1, 42] ++ [1, 2]) =
    some (.record (.ofList [.oid [1, 2], .absent]), [1, 2]) ∧
    decode Rfc5280.AlgorithmIdentifier.call.ty [48, 3, 6, 1] = none := by decide +kernel
-- C16: `critical` is defaulted, the record is legal
example : (match Rfc5280.Extension.call.ty, ext with
    | .seq s a cs, .record vs => match cs.get? 1 with
      | some (f, _) => f.mode == .dflt (.int 0) && (Ty.seq s a cs).valid (.record (vs.set 1 (.int 1))) &&
          decide ((Ty.seq s a cs).weight (.record (vs.set 1 (.int 0))) < maxOctets)
      | none => false
    | _, _ => false) = true := by decide +kernel
-- C17: an empty `certs` in `rfc5652.OriginatorInfo`
example : (match Rfc5652.OriginatorInfo.call.ty with
    | .seq s a cs => match cs.get? 0 with
      | some (f, t) => (Ty.seq s a cs).wf && !a.spec.truthy && f.mode.isOpt && t.valid (.list .nil) &&
          t.vanish (.list .nil) && decide (t.weight (.list .nil) < maxOctets)
      | none => false
    | _ => false) = true := by decide +kernel
-- C18: a SET OF class with two different elements
example : (match Rfc5280.RelativeDistinguishedName.call.ty with
    | .of true a t => (Ty.of true a t).valid rdn
    | _ => false) = true := by decide +kernel
-- C19: a CHOICE with several alternatives, inside another type
example : (match Rfc5280.GeneralName.call.ty with
    | .choice _ cs => cs.pairOk && decide (cs.length = 9)
    | _ => false) = true := by decide +kernel
-- C15: the decoder does not check the size of collections: `Extensions ::= SEQUENCE SIZE (1..MAX)`
example : decode Rfc5280.Extensions.call.ty [48, 0] = some (.list .nil, []) ∧
    Rfc5280.Extensions.call.ty.valid (.list .nil) = false := by decide +kernel

end Examples

end Codec
end Props
end Verif
