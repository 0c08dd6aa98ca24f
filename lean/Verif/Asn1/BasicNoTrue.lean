import Verif.Asn1.BasicWrite
import Verif.Asn1.BerRead

/-! # When the DER decoder reads what the BER encoder writes -/

namespace Verif
namespace Asn1

/-! ## Which values -/

/-- The component is equal to its DEFAULT. -/
def Field.isDefault (f : Field) (v : Val) : Bool := match f.mode with
  | .dflt d => v == d
  | _ => false

mutual
/-- No BOOLEAN inside the value is TRUE, apart from components that are left out because they equal their DEFAULT. -/
def Ty.noTrue : Ty → Val → Bool
  | .prim k _, v => !(k == .boolean && v == .int 1)
  | .seq _ _ cs, .record vs => cs.noTrue vs
  | .of _ _ t, .list vs => vs.every (t.noTrue)
  | .choice _ cs, .alt i v => cs.noTrueAlt i v
  | _, _ => true
def Comps.noTrue : Comps → Vals → Bool
  | .cons f t cs, .cons v vs => (f.isDefault v || t.noTrue v) && cs.noTrue vs
  | _, _ => true
def Comps.noTrueAlt : Comps → Nat → Val → Bool
  | .cons _ t _, 0, v => t.noTrue v
  | .cons _ _ cs, i + 1, v => cs.noTrueAlt i v
  | _, _, _ => true
end

open Der

theorem component_ne {f : Field} {t : Ty} {cs : Comps} {v : Val} {vs : Vals} {qs : List Bytes} {b : Bytes} (hd : f.isDefault v = true)
    (h1 : bencComps cs vs = some qs) (h : bencComps (.cons f t cs) (.cons v vs) = some (b :: qs)) : False := by
  have hm : f.mode = .dflt v := by
    simp only [Field.isDefault] at hd
    split at hd
    · rename_i d hm; simp only [beq_iff_eq] at hd; rw [hd, hm]
    · simp at hd
  rw [bencComps_skip h1 (by rw [hm]; simp) (Or.inr hm), Option.some.injEq] at h
  have := congrArg List.length h
  simp at this

theorem bencPrim_contents_der (k : Prim) (v : Val) (c : Bytes) (hk : k ≠ .any) (hn : (!(k == .boolean && v == .int 1)) = true)
    (hl : primLegal k.asText v = true) (h : bencPrim k v = some c) : Ber.Contents k v c := by
  by_cases hb : k = .boolean
  · subst hb
    cases v <;> simp only [Prim.asText, primLegal, Bool.false_eq_true, Bool.or_eq_true, beq_iff_eq] at hl
    rename_i i
    have : i = 0 := by
      rcases hl with rfl | rfl
      · rfl
      · simp at hn
    subst this
    simp only [bencPrim, Option.some.injEq] at h
    subst h
    exact Or.inl ⟨rfl, by decide⟩
  · exact (contents_plain k v c hb).1 (bencPrim_contents k v c hk hl h)

theorem wrap_around_der (isC : Bool) : ∀ (ts : TagSet) (e b : Bytes),
    ts.all (fun u => (u.constructed || isC) && u.cls != .universal) = true → wrap isC ts e = some b → Ber.Around ts e b
  | [], e, b, _, h => by
    simp only [wrap, Option.some.injEq] at h
    exact h.symm
  | t :: ts, e, b, hts, h => by
    simp only [List.all_cons, Bool.and_eq_true, bne_iff_ne] at hts
    simp only [wrap] at h
    cases h1 : tlv t isC e with
    | none => simp [h1] at h
    | some e' =>
      simp only [h1, Option.bind_some] at h
      have he := tlv_element t isC e e' h1
      rw [hts.1.1] at he
      exact ⟨hts.1.2, [], e', by simpa using he, wrap_around_der isC ts e' b (by simpa using hts.2) h⟩

theorem wrap_der (isC : Bool) (t : Tag) (ts : TagSet) (c b : Bytes)
    (hts : ts.all (fun u => (u.constructed || isC) && u.cls != .universal) = true) (h : wrap isC (t :: ts) c = some b) :
    Ber.Tagged (t.constructed || isC) (t :: ts) c b := by
  simp only [wrap] at h
  cases h1 : tlv t isC c with
  | none => simp [h1] at h
  | some e =>
    simp only [h1, Option.bind_some] at h
    exact ⟨e, tlv_element t isC c e h1, wrap_around_der isC ts e b hts h⟩

theorem wrap_prim_der (ts : TagSet) (c b : Bytes) (hw : primTags ts = true) (h : wrap false ts c = some b) : Ber.Tagged false ts c b := by
  cases ts with
  | nil => simp [primTags] at hw
  | cons t ts =>
    simp only [primTags, Bool.and_eq_true, Bool.not_eq_true'] at hw
    have := wrap_der false t ts c b (by simpa using hw.2) h
    rwa [hw.1, Bool.false_or] at this

theorem wrap_cons_der (ts : TagSet) (c b : Bytes) (hw : consTags ts = true) (h : wrap true ts c = some b) : Ber.Tagged true ts c b := by
  cases ts with
  | nil => simp [consTags] at hw
  | cons t ts =>
    simp only [consTags] at hw
    have := wrap_der true t ts c b (by simpa using hw) h
    rwa [Bool.or_true] at this

theorem each2_later_der (f : Field) (t : Ty) (cs : Comps) : ∀ (hs : List (Nat × Val)) (es : List Bytes),
    each2 (fun h e => Ber.alternative false cs h.1 h.2 e) hs es →
    each2 (fun h e => Ber.alternative false (.cons f t cs) h.1 h.2 e) (later hs) es
  | [], [], _ => trivial
  | h :: hs, e :: es, ⟨h1, h2⟩ => ⟨by simpa [Ber.alternative] using h1, each2_later_der f t cs hs es h2⟩
  | [], _ :: _, h => h.elim
  | _ :: _, [], h => h.elim

mutual
theorem benc_reads_der : ∀ (t : Ty) (v : Val) (b : Bytes), t.wf = true → t.validText v = true → t.noTrue v = true → benc t v = some b → Ber.reads false t v b
  | .prim k a, v, b, hw, hv, hn, h => by
    simp only [Ty.validText, Ty.asText, Ty.valid, Bool.and_eq_true] at hv
    simp only [benc, Option.bind_eq_some_iff] at h
    obtain ⟨c, h1, h2⟩ := h
    by_cases hk : k = .any
    · subst hk
      simp only [Ty.wf, beq_self_eq_true, if_true, decide_eq_true_eq] at hw
      cases v <;> simp only [Prim.asText, primLegal, Bool.false_eq_true, false_and] at hv
      rename_i o
      simp only [bencPrim, encPrim, Option.some.injEq] at h1
      subst h1
      simp only [Ber.reads, Ber.reads]
      cases hts : a.tags with
      | nil =>
        rw [hts] at hv h2
        simp only [wrap, Option.some.injEq] at h2
        subst h2
        have h3 := hv.2
        simp only [oneElement] at h3
        split at h3
        · rename_i x hx
          obtain ⟨g1, g2⟩ := isTLV_of_read _ _ hx
          have := whole_ber x (by show readTLV x.raw = _; rw [g2]; exact hx)
          rw [g2] at this
          exact ⟨_, _, _, _, this, rfl⟩
        · simp at h3
      | cons t ts =>
        have : ts = [] := by rw [hts] at hw; simp at hw; exact hw
        subst this
        rw [hts] at h2
        simp only [wrap] at h2
        cases h3 : tlv t false o with
        | none => simp [h3] at h2
        | some e =>
          simp only [h3, Option.bind_some, Option.some.injEq] at h2
          subst h2
          exact ⟨_, _, _, _, tlv_element t false o e h3, Or.inl ⟨rfl, rfl, rfl⟩⟩
    · have hkb : (k == Prim.any) = false := by simpa using hk
      simp only [Ty.wf, hkb, Bool.false_eq_true, if_false] at hw
      simp only [Ty.noTrue] at hn
      have hr : (∃ c, Ber.Contents k v c ∧ Ber.Tagged false a.tags c b) ∧ a.spec.ok (.simple v) = true :=
        ⟨⟨c, bencPrim_contents_der k v c hk hn hv.1.1 h1, wrap_prim_der _ _ _ hw h2⟩, hv.1.2⟩
      cases k <;> first | exact absurd rfl hk | exact hr
  | .seq s a cs, v, b, hw, hv, hn, h => by
    cases v <;> simp only [Ty.validText, Ty.asText, Ty.valid, Bool.and_eq_true, Bool.false_eq_true] at hv
    rename_i vs
    simp only [Ty.noTrue] at hn
    simp only [Ty.wf, Bool.and_eq_true] at hw
    simp only [benc] at h
    split at h
    · rename_i hok
      cases hp : bencComps cs vs with
      | none => simp [hp] at h
      | some ps =>
        simp only [hp] at h
        refine ⟨⟨ps, wrap_cons_der _ _ _ hw.1.1.1 h, ?_⟩, ?_⟩
        · cases s with
          | false => simp only [Bool.false_eq_true, if_false]; exact bencComps_reads_der cs vs ps hw.1.1.2 hv.1 hn hp
          | true => simp only [if_true]; exact bencComps_set_der cs vs ps hw.1.1.2 hv.1 hn hp
        · intro _
          rw [present_names]
          exact hok
    · simp at h
  | .of s a t, v, b, hw, hv, hn, h => by
    cases v <;> simp only [Ty.validText, Ty.asText, Ty.valid, Bool.and_eq_true, Bool.false_eq_true] at hv
    rename_i vs
    simp only [Ty.noTrue] at hn
    simp only [Ty.wf, Bool.and_eq_true] at hw
    simp only [benc] at h
    split at h
    · cases hp : mapOpt (benc t) vs.toList with
      | none => simp [hp] at h
      | some ps =>
        simp only [hp] at h
        refine ⟨ps, wrap_cons_der _ _ _ hw.1 h, ?_⟩
        have hall := hv.1
        rw [Vals.every_iff, List.all_eq_true] at hall hn
        have key : ∀ (l : List Val) (ps : List Bytes), (∀ u ∈ l, t.asText.valid u = true) → (∀ u ∈ l, t.noTrue u = true) → mapOpt (benc t) l = some ps →
            each2 (Ber.reads false t) l ps := by
          intro l
          induction l with
          | nil =>
            intro ps _ _ hm
            simp only [mapOpt, Option.some.injEq] at hm
            subst hm
            trivial
          | cons u l ih =>
            intro ps hl hq' hm
            simp only [mapOpt] at hm
            split at hm
            · rename_i p qs hp hq
              simp only [Option.some.injEq] at hm
              subst hm
              exact ⟨benc_reads_der t u p hw.2 (hl u (List.mem_cons_self ..)) (hq' u (List.mem_cons_self ..)) hp, ih qs (fun x hx => hl x (List.mem_cons_of_mem _ hx)) (fun x hx => hq' x (List.mem_cons_of_mem _ hx)) hq⟩
            · simp at hm
        exact key _ _ hall hn hp
    · simp at h
  | .choice a cs, v, b, hw, hv, hn, h => by
    cases v <;> simp only [Ty.validText, Ty.asText, Ty.valid, Bool.false_eq_true] at hv
    rename_i i v
    simp only [Ty.noTrue] at hn
    simp only [Ty.wf, Bool.and_eq_true] at hw
    simp only [benc] at h
    cases hp : bencAlt cs i v with
    | none => simp [hp] at h
    | some c =>
      simp only [hp] at h
      have hr := bencAlt_reads_der cs i v c hw.1.2 hv hn hp
      by_cases hts : a.tags = []
      · rw [hts] at h
        simp only [wrap, Option.some.injEq] at h
        subst h
        simp only [Ber.reads, hts, if_true]
        exact hr
      · simp only [Ber.reads, hts, if_false]
        have hc : consTags a.tags = true := by
          have := hw.1.1
          simpa [hts] using this
        exact ⟨true, c, [], hr, by simpa using wrap_cons_der _ _ _ hc h⟩
  | .bad _, _, _, hw, _, _, _ => by simp [Ty.wf] at hw
theorem bencComps_reads_der : ∀ (cs : Comps) (vs : Vals) (ps : List Bytes), cs.wf = true → cs.asText.valid vs = true → cs.noTrue vs = true →
    bencComps cs vs = some ps → Ber.components false cs vs ps
  | .nil, .nil, ps, _, _, _, h => by
    simp only [bencComps, Option.some.injEq] at h
    simp only [Ber.components]
    exact h.symm
  | .nil, .cons _ _, _, _, hv, _, _ => by simp [Comps.asText, Comps.valid] at hv
  | .cons _ _ _, .nil, _, _, hv, _, _ => by simp [Comps.asText, Comps.valid] at hv
  | .cons f t cs, .cons v vs, ps, hw, hv, hn, h => by
    simp only [Comps.wf, Bool.and_eq_true] at hw
    simp only [Comps.noTrue, Bool.and_eq_true, Bool.or_eq_true] at hn
    obtain ⟨qs, h1, h2, h3⟩ := bencComps_cons f t cs v vs ps hv h
    have ih := bencComps_reads_der cs vs qs hw.2 h2 hn.2 h1
    simp only [Ber.components]
    rcases h3 with ⟨rfl, h3⟩ | ⟨b, rfl, h3, h4⟩
    · exact Or.inr ⟨ih, h3⟩
    · exact Or.inl ⟨b, qs, rfl, benc_reads_der t v b hw.1 h4 (hn.1.resolve_left (fun hd => component_ne hd h1 h)) h3, ih⟩
theorem bencComps_set_der : ∀ (cs : Comps) (vs : Vals) (ps : List Bytes), cs.wf = true → cs.asText.valid vs = true → cs.noTrue vs = true →
    bencComps cs vs = some ps → ∃ hs, each2 (fun h e => Ber.alternative false cs h.1 h.2 e) hs ps ∧ Ber.settled cs vs hs
  | .nil, .nil, ps, _, _, _, h => by
    simp only [bencComps, Option.some.injEq] at h
    subst h
    exact ⟨[], trivial, rfl⟩
  | .nil, .cons _ _, _, _, hv, _, _ => by simp [Comps.asText, Comps.valid] at hv
  | .cons _ _ _, .nil, _, _, hv, _, _ => by simp [Comps.asText, Comps.valid] at hv
  | .cons f t cs, .cons v vs, ps, hw, hv, hn, h => by
    simp only [Comps.wf, Bool.and_eq_true] at hw
    simp only [Comps.noTrue, Bool.and_eq_true, Bool.or_eq_true] at hn
    obtain ⟨qs, h1, h2, h3⟩ := bencComps_cons f t cs v vs ps hv h
    obtain ⟨hs, i1, i2⟩ := bencComps_set_der cs vs qs hw.2 h2 hn.2 h1
    rcases h3 with ⟨rfl, h3⟩ | ⟨b, rfl, h3, h4⟩
    · refine ⟨later hs, each2_later_der f t cs hs _ i1, ?_⟩
      simp only [Ber.settled, first_later, others_later, List.getLast?_nil]
      exact ⟨h3, i2⟩
    · refine ⟨(0, v) :: later hs, ⟨by simpa [Ber.alternative] using benc_reads_der t v b hw.1 h4 (hn.1.resolve_left (fun hd => component_ne hd h1 h)) h3, each2_later_der f t cs hs _ i1⟩, ?_⟩
      simp only [Ber.settled, Ber.first, Ber.others, first_later, others_later, List.getLast?_singleton]
      exact ⟨trivial, i2⟩
theorem bencAlt_reads_der : ∀ (cs : Comps) (i : Nat) (v : Val) (b : Bytes), cs.wf = true → cs.asText.validAlt i v = true → cs.noTrueAlt i v = true →
    bencAlt cs i v = some b → Ber.alternative false cs i v b
  | .nil, _, _, _, _, _, _, h => by simp [bencAlt] at h
  | .cons f t cs, 0, v, b, hw, hv, hn, h => by
    simp only [Comps.wf, Bool.and_eq_true] at hw
    simp only [Comps.asText, Comps.validAlt] at hv
    simp only [bencAlt] at h
    simp only [Comps.noTrueAlt] at hn
    simp only [Ber.alternative]
    exact benc_reads_der t v b hw.1 hv hn h
  | .cons f t cs, i + 1, v, b, hw, hv, hn, h => by
    simp only [Comps.wf, Bool.and_eq_true] at hw
    simp only [Comps.asText, Comps.validAlt] at hv
    simp only [bencAlt] at h
    simp only [Comps.noTrueAlt] at hn
    simp only [Ber.alternative]
    exact bencAlt_reads_der cs i v b hw.2 hv hn h
end

end Asn1
end Verif
