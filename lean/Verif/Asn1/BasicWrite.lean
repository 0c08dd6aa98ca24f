import Verif.Asn1.BasicSound
import Verif.Asn1.Total
import Verif.Asn1.Times

/-! # What the BER encoder writes is a BER encoding of the value -/

namespace Verif
namespace Asn1

open Der

/-! ## Tags -/

theorem tlv_element (t : Tag) (isC : Bool) (c b : Bytes) (h : tlv t isC c = some b) :
    Ber.Element t.cls t.num (t.constructed || isC) c b := by
  have hx := isTLV_tlv t isC c b h
  exact whole_ber ⟨t.cls, t.constructed || isC, t.num, c, b⟩ hx.read

theorem wrap_around (isC : Bool) : ∀ (ts : TagSet) (e b : Bytes),
    ts.all (fun u => (u.constructed || isC) && u.cls != .universal) = true → wrap isC ts e = some b → Basic.Around ts e b
  | [], e, b, _, h => by
    simp only [wrap, Option.some.injEq] at h
    exact h.symm
  | t :: ts, e, b, hts, h => by
    simp only [List.all_cons, Bool.and_eq_true, bne_iff_ne] at hts
    simp only [wrap] at h
    cases h1 : tlv t isC e with
    | none => simp [h1] at h
    | some e' =>
      simp only [h1, Option.bind_some] at h
      have he := tlv_element t isC e e' h1
      rw [hts.1.1] at he
      exact ⟨hts.1.2, Or.inl ⟨[], e', by simpa using he, wrap_around isC ts e' b (by simpa using hts.2) h⟩⟩

theorem wrap_basic (isC : Bool) (t : Tag) (ts : TagSet) (c b : Bytes)
    (hts : ts.all (fun u => (u.constructed || isC) && u.cls != .universal) = true) (h : wrap isC (t :: ts) c = some b) :
    Basic.Tagged (t.constructed || isC) false (t :: ts) c b := by
  simp only [wrap] at h
  cases h1 : tlv t isC c with
  | none => simp [h1] at h
  | some e =>
    simp only [h1, Option.bind_some] at h
    exact ⟨e, tlv_element t isC c e h1, wrap_around isC ts e b hts h⟩

theorem wrap_prim (ts : TagSet) (c b : Bytes) (hw : primTags ts = true) (h : wrap false ts c = some b) : Basic.Tagged false false ts c b := by
  cases ts with
  | nil => simp [primTags] at hw
  | cons t ts =>
    simp only [primTags, Bool.and_eq_true, Bool.not_eq_true'] at hw
    have := wrap_basic false t ts c b (by simpa using hw.2) h
    rwa [hw.1, Bool.false_or] at this

theorem wrap_cons (ts : TagSet) (c b : Bytes) (hw : consTags ts = true) (h : wrap true ts c = some b) : Basic.Tagged true false ts c b := by
  cases ts with
  | nil => simp [consTags] at hw
  | cons t ts =>
    simp only [consTags] at hw
    have := wrap_basic true t ts c b (by simpa using hw) h
    rwa [Bool.or_true] at this

/-! ## Contents -/

theorem bencPrim_asText (k : Prim) (v : Val) (hk : k ≠ .boolean) : bencPrim k v = encPrim k.asText v := by
  cases k <;> first | exact absurd rfl hk | (cases v <;> rfl)

theorem bencPrim_total (k : Prim) (v : Val) (h : primLegal k.asText v = true) : ∃ b, bencPrim k v = some b ∧ b.length ≤ v.bulk := by
  by_cases hk : k = .boolean
  · subst hk
    cases v <;> simp [Prim.asText, primLegal] at h
    refine ⟨_, rfl, ?_⟩
    split <;> simp [Val.bulk]
  · rw [bencPrim_asText k v hk]
    exact encPrim_total k.asText v h

theorem bencPrim_contents (k : Prim) (v : Val) (c : Bytes) (hk : k ≠ .any) (hl : primLegal k.asText v = true) (h : bencPrim k v = some c) :
    Basic.Contents k v c := by
  by_cases hb : k = .boolean
  · subst hb
    cases v <;> simp only [Prim.asText, primLegal, Bool.false_eq_true, Bool.or_eq_true, beq_iff_eq] at hl
    simp only [bencPrim, Option.some.injEq] at h
    subst h
    simp only [Basic.Contents]
    rcases hl with rfl | rfl
    · exact Or.inl ⟨rfl, by decide⟩
    · exact Or.inr ⟨rfl, by decide⟩
  · rw [bencPrim_asText k v hb] at h
    have h1 := decPrim_encPrim k.asText v c h hl
    rw [decPrim_asText] at h1
    exact (contents_plain k v c hb).2 (decPrim_ber k v c hk h1)

/-! ## Components -/

theorem bencComps_skip {f : Field} {t : Ty} {cs : Comps} {v : Val} {vs : Vals} {ps : List Bytes}
    (h : bencComps cs vs = some ps) (hm : f.mode ≠ .req) (hv : v = .absent ∨ f.mode = .dflt v) :
    bencComps (.cons f t cs) (.cons v vs) = some ps := by
  simp only [bencComps, h]
  split
  · rename_i hf; exact absurd hf hm
  · rfl
  · rfl
  · rename_i hn1 hn2 hn3
    rcases hv with rfl | hv
    · cases hf : f.mode with
      | req => exact absurd hf hm
      | opt => exact (hn2 hf rfl).elim
      | dflt d => exact (hn3 d hf rfl).elim
    · rw [if_pos hv]

theorem bencComps_put {f : Field} {t : Ty} {cs : Comps} {v : Val} {vs : Vals} {ps : List Bytes}
    (h : bencComps cs vs = some ps) (hv : v ≠ .absent) (hm : f.mode ≠ .dflt v) :
    bencComps (.cons f t cs) (.cons v vs) = (benc t v).map (· :: ps) := by
  simp only [bencComps, h]
  split
  · exact absurd rfl hv
  · exact absurd rfl hv
  · exact absurd rfl hv
  · rw [if_neg hm]
    split <;> rename_i hb <;> simp only [hb, Option.map_none, Option.map_some]

/-- A component of a valid value is left out, or is a valid value of its own. -/
theorem component_cases {f : Field} {t : Ty} {cs : Comps} {v : Val} {vs : Vals} (hv : (Comps.cons f t cs).asText.valid (.cons v vs) = true) :
    cs.asText.valid vs = true ∧ ((f.mode ≠ .req ∧ (v = .absent ∨ f.mode = .dflt v)) ∨
      (t.asText.valid v = true ∧ v ≠ .absent ∧ f.mode ≠ .dflt v)) := by
  simp only [Comps.asText, Comps.valid, Bool.and_eq_true] at hv
  refine ⟨hv.2, ?_⟩
  by_cases hskip : f.mode ≠ .req ∧ (v = .absent ∨ f.mode = .dflt v)
  · exact Or.inl hskip
  · right
    have hval : t.asText.valid v = true := by
      have h := hv.1
      cases hf : f.mode with
      | req => simpa [hf] using h
      | opt =>
        simp only [hf, Bool.or_eq_true, beq_iff_eq] at h
        rcases h with h | h
        · exact absurd ⟨by simp [hf], Or.inl h⟩ hskip
        · exact h
      | dflt d =>
        simp only [hf, Bool.or_eq_true, beq_iff_eq] at h
        rcases h with h | h
        · exact absurd ⟨by simp [hf], Or.inr (by rw [hf, h])⟩ hskip
        · exact h
    exact ⟨hval, Ty.valid_ne_absent _ v hval, fun hm => hskip ⟨by simp [hm], Or.inr hm⟩⟩

/-- The value of a component that is left out. -/
def leftOut (m : Mode) (v : Val) : Prop :=
  match m with
  | .req => False
  | .opt => v = .absent
  | .dflt d => v = d

theorem bencComps_cons (f : Field) (t : Ty) (cs : Comps) (v : Val) (vs : Vals) (ps : List Bytes) (hv : (Comps.cons f t cs).asText.valid (.cons v vs) = true)
    (h : bencComps (.cons f t cs) (.cons v vs) = some ps) : ∃ qs, bencComps cs vs = some qs ∧ cs.asText.valid vs = true ∧
      ((ps = qs ∧ leftOut f.mode v) ∨ (∃ b, ps = b :: qs ∧ benc t v = some b ∧ t.asText.valid v = true)) := by
  obtain ⟨h1, h2⟩ := component_cases hv
  cases hq : bencComps cs vs with
  | none => simp [bencComps, hq] at h
  | some qs =>
    refine ⟨qs, rfl, h1, ?_⟩
    rcases h2 with ⟨g1, g2⟩ | ⟨g1, g2, g3⟩
    · left
      rw [bencComps_skip hq g1 g2, Option.some.injEq] at h
      refine ⟨h.symm, ?_⟩
      simp only [Comps.asText, Comps.valid, Bool.and_eq_true] at hv
      have hva := hv.1
      cases hm : f.mode with
      | req => exact absurd hm g1
      | opt =>
        rw [hm] at g2
        rcases g2 with g2 | g2
        · exact g2
        · cases g2
      | dflt d =>
        rw [hm] at g2
        simp only [hm, Bool.or_eq_true, beq_iff_eq] at hva
        rcases g2 with g2 | g2
        · rcases hva with hva | hva
          · exact hva
          · exact absurd g2 (Ty.valid_ne_absent _ v hva)
        · simp only [Mode.dflt.injEq] at g2; exact g2.symm
    · right
      rw [bencComps_put hq g2 g3] at h
      cases hb : benc t v with
      | none => simp [hb] at h
      | some b =>
        simp only [hb, Option.map_some, Option.some.injEq] at h
        exact ⟨b, h.symm, rfl, g1⟩

/-- Found one component further on. -/
def later (hs : List (Nat × Val)) : List (Nat × Val) := hs.map (fun h => (h.1 + 1, h.2))

theorem first_later : ∀ hs, Ber.first (later hs) = []
  | [] => rfl
  | (_, _) :: hs => by simpa [later, Ber.first] using first_later hs

theorem others_later : ∀ hs, Ber.others (later hs) = hs
  | [] => rfl
  | (_, _) :: hs => by
    have := others_later hs
    simp only [later] at this
    simp [later, Ber.others, this]

theorem each2_later (f : Field) (t : Ty) (cs : Comps) : ∀ (hs : List (Nat × Val)) (es : List Bytes),
    each2 (fun h e => Basic.alternative false cs h.1 h.2 e) hs es →
    each2 (fun h e => Basic.alternative false (.cons f t cs) h.1 h.2 e) (later hs) es
  | [], [], _ => trivial
  | h :: hs, e :: es, ⟨h1, h2⟩ => ⟨by simpa [Basic.alternative] using h1, each2_later f t cs hs es h2⟩
  | [], _ :: _, h => h.elim
  | _ :: _, [], h => h.elim

mutual
theorem benc_reads : ∀ (t : Ty) (v : Val) (b : Bytes), t.wf = true → t.validText v = true → benc t v = some b → Basic.reads false t v b
  | .prim k a, v, b, hw, hv, h => by
    simp only [Ty.validText, Ty.asText, Ty.valid, Bool.and_eq_true] at hv
    simp only [benc, Option.bind_eq_some_iff] at h
    obtain ⟨c, h1, h2⟩ := h
    by_cases hk : k = .any
    · subst hk
      simp only [Ty.wf, beq_self_eq_true, if_true, decide_eq_true_eq] at hw
      cases v <;> simp only [Prim.asText, primLegal, Bool.false_eq_true, false_and] at hv
      rename_i o
      simp only [bencPrim, encPrim, Option.some.injEq] at h1
      subst h1
      simp only [Basic.reads, Ber.reads]
      cases hts : a.tags with
      | nil =>
        rw [hts] at hv h2
        simp only [wrap, Option.some.injEq] at h2
        subst h2
        have h3 := hv.2
        simp only [oneElement] at h3
        split at h3
        · rename_i x hx
          obtain ⟨g1, g2⟩ := isTLV_of_read _ _ hx
          have := whole_ber x (by show readTLV x.raw = _; rw [g2]; exact hx)
          rw [g2] at this
          exact ⟨_, _, _, _, this, rfl⟩
        · simp at h3
      | cons t ts =>
        have : ts = [] := by rw [hts] at hw; simp at hw; exact hw
        subst this
        rw [hts] at h2
        simp only [wrap] at h2
        cases h3 : tlv t false o with
        | none => simp [h3] at h2
        | some e =>
          simp only [h3, Option.bind_some, Option.some.injEq] at h2
          subst h2
          exact ⟨_, _, _, _, tlv_element t false o e h3, Or.inl ⟨rfl, rfl, rfl⟩⟩
    · have hkb : (k == Prim.any) = false := by simpa using hk
      simp only [Ty.wf, hkb, Bool.false_eq_true, if_false] at hw
      have hr : ((∃ c, Basic.Contents k v c ∧ Basic.Tagged false false a.tags c b) ∨
          (∃ es form ind, (form = true ∨ ind = true) ∧ Basic.Pieces ind k v es ∧ Basic.Tagged form ind a.tags es.flatten b)) ∧
          a.spec.ok (.simple v) = true :=
        ⟨Or.inl ⟨c, bencPrim_contents k v c hk hv.1.1 h1, wrap_prim _ _ _ hw h2⟩, hv.1.2⟩
      cases k <;> first | exact absurd rfl hk | exact hr
  | .seq s a cs, v, b, hw, hv, h => by
    cases v <;> simp only [Ty.validText, Ty.asText, Ty.valid, Bool.and_eq_true, Bool.false_eq_true] at hv
    rename_i vs
    simp only [Ty.wf, Bool.and_eq_true] at hw
    simp only [benc] at h
    split at h
    · rename_i hok
      cases hp : bencComps cs vs with
      | none => simp [hp] at h
      | some ps =>
        simp only [hp] at h
        refine ⟨⟨ps, false, wrap_cons _ _ _ hw.1.1.1 h, ?_⟩, ?_⟩
        · cases s with
          | false => simp only [Bool.false_eq_true, if_false]; exact bencComps_reads cs vs ps hw.1.1.2 hv.1 hp
          | true => simp only [if_true]; exact bencComps_set cs vs ps hw.1.1.2 hv.1 hp
        · intro _
          rw [present_names]
          exact hok
    · simp at h
  | .of s a t, v, b, hw, hv, h => by
    cases v <;> simp only [Ty.validText, Ty.asText, Ty.valid, Bool.and_eq_true, Bool.false_eq_true] at hv
    rename_i vs
    simp only [Ty.wf, Bool.and_eq_true] at hw
    simp only [benc] at h
    split at h
    · cases hp : mapOpt (benc t) vs.toList with
      | none => simp [hp] at h
      | some ps =>
        simp only [hp] at h
        refine ⟨ps, false, wrap_cons _ _ _ hw.1 h, ?_⟩
        have hall := hv.1
        rw [Vals.every_iff, List.all_eq_true] at hall
        have key : ∀ (l : List Val) (ps : List Bytes), (∀ u ∈ l, t.asText.valid u = true) → mapOpt (benc t) l = some ps →
            each2 (Basic.reads false t) l ps := by
          intro l
          induction l with
          | nil =>
            intro ps _ hm
            simp only [mapOpt, Option.some.injEq] at hm
            subst hm
            trivial
          | cons u l ih =>
            intro ps hl hm
            simp only [mapOpt] at hm
            split at hm
            · rename_i p qs hp hq
              simp only [Option.some.injEq] at hm
              subst hm
              exact ⟨benc_reads t u p hw.2 (hl u (List.mem_cons_self ..)) hp, ih qs (fun x hx => hl x (List.mem_cons_of_mem _ hx)) hq⟩
            · simp at hm
        exact key _ _ hall hp
    · simp at h
  | .choice a cs, v, b, hw, hv, h => by
    cases v <;> simp only [Ty.validText, Ty.asText, Ty.valid, Bool.false_eq_true] at hv
    rename_i i v
    simp only [Ty.wf, Bool.and_eq_true] at hw
    simp only [benc] at h
    cases hp : bencAlt cs i v with
    | none => simp [hp] at h
    | some c =>
      simp only [hp] at h
      have hr := bencAlt_reads cs i v c hw.1.2 hv hp
      by_cases hts : a.tags = []
      · rw [hts] at h
        simp only [wrap, Option.some.injEq] at h
        subst h
        simp only [Basic.reads, hts, if_true]
        exact hr
      · simp only [Basic.reads, hts, if_false]
        have hc : consTags a.tags = true := by
          have := hw.1.1
          simpa [hts] using this
        exact ⟨true, c, hr, Or.inl ⟨[], by simpa using wrap_cons _ _ _ hc h⟩⟩
  | .bad _, _, _, hw, _, _ => by simp [Ty.wf] at hw
theorem bencComps_reads : ∀ (cs : Comps) (vs : Vals) (ps : List Bytes), cs.wf = true → cs.asText.valid vs = true →
    bencComps cs vs = some ps → Basic.components false cs vs ps
  | .nil, .nil, ps, _, _, h => by
    simp only [bencComps, Option.some.injEq] at h
    simp only [Basic.components]
    exact h.symm
  | .nil, .cons _ _, _, _, hv, _ => by simp [Comps.asText, Comps.valid] at hv
  | .cons _ _ _, .nil, _, _, hv, _ => by simp [Comps.asText, Comps.valid] at hv
  | .cons f t cs, .cons v vs, ps, hw, hv, h => by
    simp only [Comps.wf, Bool.and_eq_true] at hw
    obtain ⟨qs, h1, h2, h3⟩ := bencComps_cons f t cs v vs ps hv h
    have ih := bencComps_reads cs vs qs hw.2 h2 h1
    simp only [Basic.components]
    rcases h3 with ⟨rfl, h3⟩ | ⟨b, rfl, h3, h4⟩
    · exact Or.inr ⟨ih, h3⟩
    · exact Or.inl ⟨b, qs, rfl, benc_reads t v b hw.1 h4 h3, ih⟩
theorem bencComps_set : ∀ (cs : Comps) (vs : Vals) (ps : List Bytes), cs.wf = true → cs.asText.valid vs = true →
    bencComps cs vs = some ps → ∃ hs, each2 (fun h e => Basic.alternative false cs h.1 h.2 e) hs ps ∧ Ber.settled cs vs hs
  | .nil, .nil, ps, _, _, h => by
    simp only [bencComps, Option.some.injEq] at h
    subst h
    exact ⟨[], trivial, rfl⟩
  | .nil, .cons _ _, _, _, hv, _ => by simp [Comps.asText, Comps.valid] at hv
  | .cons _ _ _, .nil, _, _, hv, _ => by simp [Comps.asText, Comps.valid] at hv
  | .cons f t cs, .cons v vs, ps, hw, hv, h => by
    simp only [Comps.wf, Bool.and_eq_true] at hw
    obtain ⟨qs, h1, h2, h3⟩ := bencComps_cons f t cs v vs ps hv h
    obtain ⟨hs, i1, i2⟩ := bencComps_set cs vs qs hw.2 h2 h1
    rcases h3 with ⟨rfl, h3⟩ | ⟨b, rfl, h3, h4⟩
    · refine ⟨later hs, each2_later f t cs hs _ i1, ?_⟩
      simp only [Ber.settled, first_later, others_later, List.getLast?_nil]
      exact ⟨h3, i2⟩
    · refine ⟨(0, v) :: later hs, ⟨by simpa [Basic.alternative] using benc_reads t v b hw.1 h4 h3, each2_later f t cs hs _ i1⟩, ?_⟩
      simp only [Ber.settled, Ber.first, Ber.others, first_later, others_later, List.getLast?_singleton]
      exact ⟨trivial, i2⟩
theorem bencAlt_reads : ∀ (cs : Comps) (i : Nat) (v : Val) (b : Bytes), cs.wf = true → cs.asText.validAlt i v = true →
    bencAlt cs i v = some b → Basic.alternative false cs i v b
  | .nil, _, _, _, _, _, h => by simp [bencAlt] at h
  | .cons f t cs, 0, v, b, hw, hv, h => by
    simp only [Comps.wf, Bool.and_eq_true] at hw
    simp only [Comps.asText, Comps.validAlt] at hv
    simp only [bencAlt] at h
    simp only [Basic.alternative]
    exact benc_reads t v b hw.1 hv h
  | .cons f t cs, i + 1, v, b, hw, hv, h => by
    simp only [Comps.wf, Bool.and_eq_true] at hw
    simp only [Comps.asText, Comps.validAlt] at hv
    simp only [bencAlt] at h
    simp only [Basic.alternative]
    exact bencAlt_reads cs i v b hw.2 hv h
end

/-! ## Totality -/

mutual
theorem benc_total : ∀ (t : Ty) (v : Val), t.validText v = true → t.weight v < 256 ^ 126 →
    ∃ b, benc t v = some b ∧ b.length ≤ t.weight v
  | .prim k a, v, hv, hw => by
    simp only [Ty.validText, Ty.asText, Ty.valid, Bool.and_eq_true] at hv
    simp only [Ty.weight] at hw ⊢
    obtain ⟨c, h1, h2⟩ := bencPrim_total k v hv.1.1
    obtain ⟨b, h3, h4⟩ := wrap_total false a.tags c (by omega)
    exact ⟨b, by simp [benc, h1, h3], by omega⟩
  | .seq s a cs, v, hv, hw => by
    cases v <;> simp only [Ty.validText, Ty.asText, Ty.valid, Bool.and_eq_true, Bool.false_eq_true] at hv
    rename_i vs
    rw [Comps.asText_names] at hv
    simp only [Ty.weight] at hw ⊢
    obtain ⟨ps, h1, h2⟩ := bencComps_total cs vs hv.1 (by omega)
    obtain ⟨b, h3, h4⟩ := wrap_total true a.tags ps.flatten (by omega)
    exact ⟨b, by simp only [benc, hv.2, if_true, h1, h3], by omega⟩
  | .of s a t, v, hv, hw => by
    cases v <;> simp only [Ty.validText, Ty.asText, Ty.valid, Bool.and_eq_true, Bool.false_eq_true] at hv
    rename_i vs
    simp only [Ty.weight] at hw ⊢
    rw [Vals.every_iff, List.all_eq_true] at hv
    rw [Vals.total_eq] at hw ⊢
    have key : ∀ l : List Val, (∀ u ∈ l, t.asText.valid u = true) → (l.map t.weight).sum < 256 ^ 126 →
        ∃ ps : List Bytes, mapOpt (benc t) l = some ps ∧ ps.flatten.length ≤ (l.map t.weight).sum := by
      intro l
      induction l with
      | nil => intro _ _; exact ⟨[], rfl, by simp⟩
      | cons u l ih =>
        intro hl hs
        simp only [List.map_cons, List.sum_cons] at hs ⊢
        obtain ⟨ps, h1, h2⟩ := ih (fun x hx => hl x (by simp [hx])) (by omega)
        obtain ⟨b, h3, h4⟩ := benc_total t u (hl u (by simp)) (by omega)
        refine ⟨b :: ps, by simp [mapOpt, h1, h3], ?_⟩
        simp only [List.flatten_cons, List.length_append]; omega
    obtain ⟨ps, h1, h2⟩ := key vs.toList hv.1 (by omega)
    obtain ⟨b, h3, h4⟩ := wrap_total true a.tags ps.flatten (by omega)
    exact ⟨b, by simp only [benc, hv.2, if_true, h1, h3], by omega⟩
  | .choice a cs, v, hv, hw => by
    cases v <;> simp only [Ty.validText, Ty.asText, Ty.valid, Bool.false_eq_true] at hv
    rename_i i v
    simp only [Ty.weight] at hw ⊢
    obtain ⟨c, h1, h2⟩ := bencAlt_total cs i v hv (by omega)
    obtain ⟨b, h3, h4⟩ := wrap_total true a.tags c (by omega)
    exact ⟨b, by simp only [benc, h1, h3], by omega⟩
  | .bad _, _, hv, _ => by simp [Ty.validText, Ty.asText, Ty.valid] at hv
theorem bencComps_total : ∀ (cs : Comps) (vs : Vals), cs.asText.valid vs = true → cs.weight vs < 256 ^ 126 →
    ∃ ps, bencComps cs vs = some ps ∧ ps.flatten.length ≤ cs.weight vs
  | .nil, .nil, _, _ => ⟨[], by simp [bencComps], by simp⟩
  | .nil, .cons _ _, hv, _ => by simp [Comps.asText, Comps.valid] at hv
  | .cons _ _ _, .nil, hv, _ => by simp [Comps.asText, Comps.valid] at hv
  | .cons f t cs, .cons v vs, hv, hw => by
    obtain ⟨hv1, hv2⟩ := component_cases hv
    simp only [Comps.weight] at hw ⊢
    obtain ⟨ps, h1, h2⟩ := bencComps_total cs vs hv1 (by omega)
    rcases hv2 with ⟨g1, g2⟩ | ⟨g1, g2, g3⟩
    · exact ⟨ps, bencComps_skip h1 g1 g2, by omega⟩
    · obtain ⟨b, h3, h4⟩ := benc_total t v g1 (by omega)
      refine ⟨b :: ps, by rw [bencComps_put h1 g2 g3, h3]; rfl, ?_⟩
      simp only [List.flatten_cons, List.length_append]; omega
theorem bencAlt_total : ∀ (cs : Comps) (i : Nat) (v : Val), cs.asText.validAlt i v = true →
    cs.weightAlt i v < 256 ^ 126 → ∃ b, bencAlt cs i v = some b ∧ b.length ≤ cs.weightAlt i v
  | .nil, _, _, hv, _ => by simp [Comps.asText, Comps.validAlt] at hv
  | .cons f t cs, 0, v, hv, hw => by
    simp only [Comps.asText, Comps.validAlt] at hv
    simp only [Comps.weightAlt] at hw ⊢
    simp only [bencAlt]
    exact benc_total t v hv hw
  | .cons f t cs, i + 1, v, hv, hw => by
    simp only [Comps.asText, Comps.validAlt] at hv
    simp only [Comps.weightAlt] at hw ⊢
    simp only [bencAlt]
    exact bencAlt_total cs i v hv hw
end

end Asn1
end Verif
