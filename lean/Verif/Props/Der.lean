import Verif.Package.Types
import Verif.Asn1.DerUnique
import Verif.Props.Codec

/-!
# Encodings against the Distinguished Encoding Rules

C34 (integers), C35 (what is written is DER), C36 (DER from elsewhere is read), C37 (there is no other
encoding), for every class of the package.
-/

namespace Verif
namespace Props
namespace Encoding

open Asn1 Der

/-! ## C34 -/

/-- C34: an INTEGER is written in as few octets as possible unless it is `-2^(8m+7)`. -/
theorem integer_shortest (i : Int) : shortest (encInt i) ↔ ∀ m : Nat, i ≠ -(128 * 256 ^ m) := encInt_shortest i

/-- C34: then the octets are the only contents octets DER allows. -/
theorem integer_der (i : Int) (hi : ∀ m : Nat, i ≠ -(128 * 256 ^ m)) (c : Bytes) :
    Contents false .integer (.int i) c ↔ c = encInt i := by
  rw [contents_iff false .integer (.int i) c rfl hi]
  simp [encPrim, eq_comm]

/-- C34: the others are written with one octet too many, which is not DER. -/
theorem integer_edge (m : Nat) (a : Attrs) (t : Tag) (ha : a.tags = [t]) (hc : t.constructed = false) (w : Val) (b : Bytes)
    (he : encode (.prim .integer a) (.int (-(128 * 256 ^ m))) = some b) : ¬ encodes (.prim .integer a) w b := by
  intro h
  simp only [encodes] at h
  obtain ⟨c, h1, h2⟩ := h
  simp only [encode, enc, encPrim, Option.bind_some] at he
  rw [ha] at h2 he
  rw [tagged_iff false _ _ _ _ (by simp [fits, hc])] at h2
  have hcc : c = encInt (-(128 * 256 ^ m)) := by
    simp only [wrap, Option.bind_eq_some_iff, Option.some.injEq] at h2 he
    obtain ⟨b1, e1, rfl⟩ := h2
    obtain ⟨b2, e2, rfl⟩ := he
    have r1 := isTLV_tlv _ _ _ _ e1
    have r2 := isTLV_tlv _ _ _ _ e2
    have := r1.read
    rw [r2.read] at this
    simp only [Option.some.injEq, Prod.mk.injEq, TLV.mk.injEq, and_true] at this
    exact this.2.2.2.symm
  cases w <;> simp only [Contents] at h1
  have := h1.2.2
  rw [hcc, encInt_shortest] at this
  exact this m rfl

example : encInt (-128) = [255, 128] ∧ encInt (-127) = [129] ∧ encInt 128 = [0, 128] := by decide

/-! ## C35 -/

/-- The classes in which an ANY with a context tag is written as a primitive element. -/
def primitiveAny : List String :=
  ["rfc2634.SecurityCategory", "rfc2634.SecurityCategories", "rfc2634.ESSSecurityLabel", "rfc2634.EquivalentLabels",
   "rfc3281.SecurityCategory", "rfc3281.Clearance", "rfc5035.SecurityCategory", "rfc5035.SecurityCategories",
   "rfc5035.ESSSecurityLabel", "rfc5035.EquivalentLabels", "rfc5755.SecurityCategory", "rfc5755.Clearance",
   "rfc5755.Clearance_rfc3281", "rfc5913.AuthorityClearanceConstraints", "rfc7906.SecurityCategories",
   "rfc7906.ESSSecurityLabel", "rfc7906.Classification"]

/-- Exactly these classes break the tagging or ordering rules. -/
theorem derOk_table : (Package.types.filter (fun c => !c.2.derOk)).map Prod.fst = primitiveAny := by decide +kernel

theorem derOk_of_mem {c : String × Ty} (h : c ∈ Package.types) (hd : c.1 ∉ primitiveAny) : c.2.derOk = true := by
  cases hw : c.2.derOk with
  | true => rfl
  | false =>
    refine absurd ?_ hd
    rw [← derOk_table]
    exact List.mem_map.2 ⟨c, List.mem_filter.2 ⟨h, by simp [hw]⟩, rfl⟩

/-- C35: what is written for a legal value is the DER encoding of the value without the empty collections in
OPTIONAL components. -/
theorem encode_der (c : String × Ty) (hc : c ∈ Package.types) (hd : c.1 ∉ Package.defective) (ha : c.1 ∉ primitiveAny)
    (v : Val) (b : Bytes) (hv : c.2.valid v = true) (hk : care c.2 v) (he : encode c.2 v = some b) :
    encodes c.2 (c.2.drop false v) b := by
  have hw := Package.wf_of_mem hc hd
  have hb : b ≠ [] := by
    rintro rfl
    have := enc_isEmpty false c.2 v [] hw hv he
    simp at this
  exact derT c.2 false v b hw (Package.stable_of_mem hc) (derOk_of_mem hc ha) hv hk he hb

mutual
/-- Dropping is part of the normalisation that C12 allows. -/
theorem same_drop : ∀ (t : Ty) (ine : Bool) (v : Val), t.valid v = true → t.same ine v (t.drop ine v)
  | .prim _ _, _, v, _ => by cases v <;> rfl
  | .seq _ _ cs, _, v, hv => by
    cases v <;> simp [Ty.valid] at hv
    simpa [Ty.same, Ty.drop] using same_dropC cs _ hv.1
  | .of s _ t, ine, v, hv => by
    cases v <;> simp [Ty.valid] at hv
    rename_i vs
    rw [Vals.every_iff, List.all_eq_true] at hv
    simp only [Ty.drop, Ty.same, Vals.toList_ofList]
    refine ⟨vs.toList, by cases s <;> simp, ?_⟩
    have := all2_of_mem (p := t.same ine) id (t.drop ine) (vs.toList.filter (fun u => !(ine && t.vanish u)))
      (fun u hu => same_drop t ine u (hv.1 u (List.mem_filter.1 hu).1))
    simpa using this
  | .choice _ cs, ine, v, hv => by
    cases v <;> simp [Ty.valid] at hv
    simpa [Ty.same, Ty.drop] using same_dropA cs ine _ _ hv
  | .bad _, _, v, hv => by simp [Ty.valid] at hv
theorem same_dropC : ∀ (cs : Comps) (vs : Vals), cs.valid vs = true → cs.same vs (cs.drop vs)
  | .nil, vs, hv => by cases vs <;> simp [Comps.valid] at hv; trivial
  | .cons f t cs, .nil, hv => by simp [Comps.valid] at hv
  | .cons f t cs, .cons v vs, hv => by
    simp only [Comps.valid, Bool.and_eq_true] at hv
    simp only [Comps.same, Comps.drop]
    refine ⟨?_, same_dropC cs vs hv.2⟩
    have h1 := hv.1
    cases hf : f.mode with
    | req =>
      simp only [hf] at h1 ⊢
      exact same_drop t false v h1
    | opt =>
      simp only [hf, Bool.or_eq_true, beq_iff_eq] at h1 ⊢
      by_cases h0 : v = .absent
      · exact Or.inl ⟨h0, by simp [h0]⟩
      · cases hva : t.vanish v with
        | true => exact Or.inr (Or.inl ⟨rfl, by simp⟩)
        | false =>
          refine Or.inr (Or.inr ⟨rfl, ?_⟩)
          simpa [h0] using same_drop t true v (h1.resolve_left h0)
    | dflt d =>
      simp only [hf, Bool.or_eq_true, beq_iff_eq] at h1 ⊢
      by_cases h0 : v = d
      · exact Or.inl ⟨h0, by simp [h0]⟩
      · exact Or.inr ⟨h0, by simpa [h0] using same_drop t false v (h1.resolve_left h0)⟩
theorem same_dropA : ∀ (cs : Comps) (ine : Bool) (i : Nat) (v : Val), cs.validAlt i v = true →
    cs.sameAlt ine i v (cs.dropAlt ine i v)
  | .nil, _, _, _, hv => by simp [Comps.validAlt] at hv
  | .cons _ t _, ine, 0, v, hv => by
    simpa [Comps.sameAlt, Comps.dropAlt] using same_drop t ine v (by simpa [Comps.validAlt] using hv)
  | .cons _ _ cs, ine, i + 1, v, hv => by
    simpa [Comps.sameAlt, Comps.dropAlt] using same_dropA cs ine i v (by simpa [Comps.validAlt] using hv)
end

/-- C35: the value whose DER encoding is written carries the same abstract value (as in C12). -/
theorem drop_same (c : String × Ty) (v : Val) (hv : c.2.valid v = true) : c.2.same false v (c.2.drop false v) :=
  same_drop c.2 false v hv

mutual
theorem kept_plain : ∀ (t : Ty) (ine : Bool) (v : Val), t.valid v = true → t.kept ine v = true → t.drop ine v = v
  | .prim _ _, _, v, _, _ => by cases v <;> rfl
  | .seq _ _ cs, _, v, hv, hk => by
    cases v <;> simp [Ty.valid] at hv
    simp only [Ty.kept] at hk
    simp only [Ty.drop, kept_plainC cs _ hv.1 hk]
  | .of s _ t, ine, v, hv, hk => by
    cases v <;> simp [Ty.valid] at hv
    rename_i vs
    rw [Vals.every_iff, List.all_eq_true] at hv
    simp only [Ty.kept, Vals.every_iff, List.all_eq_true, Bool.and_eq_true] at hk
    simp only [Ty.drop]
    rw [List.filter_eq_self.2 (fun u hu => (hk u hu).2)]
    have : vs.toList.map (t.drop ine) = vs.toList := by
      conv => rhs; rw [← List.map_id vs.toList]
      apply List.map_congr_left
      intro u hu
      exact kept_plain t ine u (hv.1 u hu) (hk u hu).1
    rw [this, Vals.ofList_toList]
  | .choice _ cs, ine, v, hv, hk => by
    cases v <;> simp [Ty.valid] at hv
    simp only [Ty.kept] at hk
    simp only [Ty.drop, kept_plainA cs ine _ _ hv hk]
  | .bad _, _, v, hv, _ => by simp [Ty.valid] at hv
theorem kept_plainC : ∀ (cs : Comps) (vs : Vals), cs.valid vs = true → cs.kept vs = true → cs.drop vs = vs
  | .nil, vs, _, _ => by cases vs <;> rfl
  | .cons f t cs, .nil, _, _ => rfl
  | .cons f t cs, .cons v vs, hv, hk => by
    simp only [Comps.valid, Comps.kept, Bool.and_eq_true] at hv hk
    simp only [Comps.drop, kept_plainC cs vs hv.2 hk.2]
    congr 1
    have h1 := hv.1
    have h2 := hk.1
    cases hf : f.mode with
    | req =>
      simp only [hf] at h1 h2 ⊢
      exact kept_plain t false v h1 h2
    | opt =>
      simp only [hf, Bool.or_eq_true, beq_iff_eq, Bool.and_eq_true, Bool.not_eq_true'] at h1 h2 ⊢
      by_cases h0 : v = .absent
      · simp [h0]
      · obtain ⟨h2, h3⟩ := h2.resolve_left h0
        simpa [h0, h2] using kept_plain t true v (h1.resolve_left h0) h3
    | dflt d =>
      simp only [hf, Bool.or_eq_true, beq_iff_eq] at h1 h2 ⊢
      by_cases h0 : v = d
      · simp [h0]
      · simpa [h0] using kept_plain t false v (h1.resolve_left h0) (h2.resolve_left h0)
theorem kept_plainA : ∀ (cs : Comps) (ine : Bool) (i : Nat) (v : Val), cs.validAlt i v = true → cs.keptAlt ine i v = true →
    cs.dropAlt ine i v = v
  | .nil, _, _, _, hv, _ => by simp [Comps.validAlt] at hv
  | .cons _ t _, ine, 0, v, hv, hk => by
    simpa [Comps.dropAlt] using kept_plain t ine v (by simpa [Comps.validAlt] using hv) (by simpa [Comps.keptAlt] using hk)
  | .cons _ _ cs, ine, i + 1, v, hv, hk => by
    simpa [Comps.dropAlt] using kept_plainA cs ine i v (by simpa [Comps.validAlt] using hv) (by simpa [Comps.keptAlt] using hk)
end

/-- C35: what is written is the DER encoding of the value itself, if no OPTIONAL component of it is an empty
collection. -/
theorem encode_der_kept (c : String × Ty) (hc : c ∈ Package.types) (hd : c.1 ∉ Package.defective) (ha : c.1 ∉ primitiveAny)
    (v : Val) (b : Bytes) (hv : c.2.valid v = true) (hk : care c.2 v) (hn : c.2.kept false v = true)
    (he : encode c.2 v = some b) : encodes c.2 v b := by
  have := encode_der c hc hd ha v b hv hk he
  rwa [kept_plain c.2 false v hv hn] at this

/-! ### The exceptions -/

/-- C35: an ANY with a primitive tag is never written as DER demands. -/
theorem primitive_any (a : Attrs) (t : Tag) (ha : a.tags = [t]) (hc : t.constructed = false) (v w : Val) (b : Bytes)
    (he : encode (.prim .any a) v = some b) : ¬ encodes (.prim .any a) w b := by
  intro h
  simp only [encodes] at h
  obtain ⟨c, _, h2⟩ := h
  rw [ha] at h2
  have h2 : Tagged true [{ t with constructed := true }] c b := h2
  rw [tagged_iff false _ _ _ _ (by simp [fits])] at h2
  simp only [encode, enc, Option.bind_eq_some_iff, ha, wrap, Option.some.injEq] at h2 he
  obtain ⟨b1, e1, rfl⟩ := h2
  obtain ⟨c', _, b2, e2, rfl⟩ := he
  have r1 := (isTLV_tlv _ _ _ _ e1).read
  rw [(isTLV_tlv _ _ _ _ e2).read] at r1
  simp [hc] at r1

/-- C35: `careful` asks for no more than is needed: a primitive value that is written in DER meets it. -/
theorem careful_needed (k : Prim) (a : Attrs) (hw : (Ty.prim k a).wf = true) (v : Val) (b : Bytes)
    (he : encode (.prim k a) v = some b) (h : encodes (.prim k a) v b) : careful (!a.named.isEmpty) k v := by
  by_cases hk : k = .any
  · subst hk; cases v <;> trivial
  have hkb : (k == Prim.any) = false := by simpa using hk
  simp only [Ty.wf, hkb, Bool.false_eq_true, if_false] at hw
  simp only [encodes, hkb] at h
  obtain ⟨c, h1, h2⟩ := h
  rw [tagged_iff false _ _ _ _ (fits_prim _ hw)] at h2
  simp only [encode, enc, Option.bind_eq_some_iff] at he
  obtain ⟨c', h3, h4⟩ := he
  have hcc : c = c' := by
    cases ht : a.tags with
    | nil => simp [ht, primTags] at hw
    | cons t ts =>
      rw [ht] at h2 h4 hw
      simp only [primTags, Bool.and_eq_true] at hw
      obtain ⟨x, y, e1, e2, e3, _⟩ := wrap_spec false t ts c b (by simpa using hw.2) h2
      obtain ⟨x', y', e1', e2', e3', _⟩ := wrap_spec false t ts c' b (by simpa using hw.2) h4
      have hx : x = x' := by
        have := e1.read
        rw [e1'.read] at this
        simpa [eq_comm] using this
      subst hx
      rw [e2] at e2'
      simp only [Option.some.injEq] at e2'
      rw [← e3, ← e3', e2']
  subst hcc
  cases k with
  | integer =>
    cases v <;> simp only [Contents] at h1
    simp only [encPrim, Option.some.injEq] at h3
    subst h3
    exact (encInt_shortest _).1 h1.2.2
  | enumerated =>
    cases v <;> simp only [Contents] at h1
    simp only [encPrim, Option.some.injEq] at h3
    subst h3
    exact (encInt_shortest _).1 h1.2.2
  | bitString =>
    cases v <;> simp only [Contents] at h1
    obtain ⟨u, body, _, _, _, _, h⟩ := h1
    exact h
  | str q =>
    cases v <;> simp only [Contents] at h1
    cases q with
    | utf16be => obtain ⟨bs, h, _⟩ := h1; exact utf16_each _ bs h
    | _ => trivial
  | utcTime => cases v <;> simp only [Contents] at h1; exact h1.1
  | generalizedTime => cases v <;> simp only [Contents] at h1; exact h1.1
  | boolean => cases v <;> trivial
  | octetString => cases v <;> trivial
  | null => cases v <;> trivial
  | oid => cases v <;> trivial
  | any => exact absurd rfl hk

/-- `SecurityCategory`: an OBJECT IDENTIFIER and an ANY with a primitive tag (rfc2634.py:173-176, rfc3281.py:119-122,
rfc5755.py:314-320). -/
def categoryLike (o : Option OpenTy) : Ty :=
  .seq false ⟨[⟨.universal, true, 16⟩], .inter .nil, []⟩
    (.cons ⟨"type", .req, none⟩ (.prim .oid ⟨[⟨.context, false, 0⟩], .inter .nil, []⟩)
    (.cons ⟨"value", .req, o⟩ (.prim .any ⟨[⟨.context, false, 1⟩], .inter .nil, []⟩) .nil))

theorem category_2634 : Rfc2634.SecurityCategory.call.ty = categoryLike none := by decide +kernel
theorem category_3281 : Rfc3281.SecurityCategory.call.ty = categoryLike none := by decide +kernel
theorem category_5035 : Rfc5035.SecurityCategory.call.ty = categoryLike none := by decide +kernel
theorem category_5755 : ∃ o, Rfc5755.SecurityCategory.call.ty = categoryLike o := ⟨_, by rfl⟩

/-- C35: no value of `SecurityCategory` is ever written in DER. -/
theorem category_not_der (o : Option OpenTy) (v w : Val) (b : Bytes) (he : encode (categoryLike o) v = some b) :
    ¬ encodes (categoryLike o) w b := by
  intro h
  -- what was written
  cases v <;> simp only [encode, categoryLike, enc] at he <;> try cases he
  rename_i vs
  split at he <;> try cases he
  split at he <;> try cases he
  rename_i ps hps
  simp only [Bool.false_and, Bool.false_eq_true, if_false] at he
  cases vs with
  | nil => simp [encComps] at hps
  | cons v1 vs =>
  obtain ⟨ps1, hp1, h1⟩ := encComps_cons hps
  cases vs with
  | nil => simp [encComps] at hp1
  | cons v2 vs =>
  obtain ⟨ps2, hp2, h2⟩ := encComps_cons hp1
  cases vs with
  | cons => simp [encComps] at hp2
  | nil =>
  simp only [encComps, Option.some.injEq] at hp2
  subst hp2
  rcases h2 with ⟨h2, _⟩ | ⟨_, _, b2, hb2, rfl⟩
  · exact absurd rfl h2
  rcases h1 with ⟨h1, _⟩ | ⟨_, _, b1, hb1, rfl⟩
  · exact absurd rfl h1
  simp only [List.flatMap_cons, List.flatMap_nil, List.append_nil] at he
  -- what should have been written
  cases w <;> simp only [categoryLike, encodes] at h <;> try exact h.elim
  rename_i ws
  obtain ⟨es, fs, hco, har, ht⟩ := h
  simp only [Bool.false_eq_true, if_false] at har
  subst har
  rw [tagged_iff true _ _ _ _ (fits_cons _)] at ht
  cases ws with
  | nil => simp [components] at hco
  | cons w1 ws =>
  simp only [components] at hco
  obtain ⟨e1, es1, rfl, he1, hco⟩ := hco
  cases ws with
  | nil => simp [components] at hco
  | cons w2 ws =>
  simp only [components] at hco
  obtain ⟨e2, es2, rfl, he2, hco⟩ := hco
  cases ws with
  | cons => simp [components] at hco
  | nil =>
  simp only [components] at hco
  subst hco
  simp only [List.flatten_cons, List.flatten_nil, List.append_nil] at ht
  -- the contents agree
  have hcon : b1 ++ b2 = e1 ++ e2 := by
    simp only [wrap, Option.bind_eq_some_iff, Option.some.injEq] at he ht
    obtain ⟨x, k1, rfl⟩ := he
    obtain ⟨y, k2, rfl⟩ := ht
    have r1 := (isTLV_tlv _ _ _ _ k1).read
    rw [(isTLV_tlv _ _ _ _ k2).read] at r1
    simp at r1
    exact r1.symm
  -- the first component is one element in both
  have hfirst : b1 = e1 := by
    simp only [encodes] at he1
    obtain ⟨c, _, ht1⟩ := he1
    rw [tagged_iff false _ _ _ _ (by decide)] at ht1
    simp only [enc, wrap, Option.bind_eq_some_iff, Option.some.injEq] at ht1 hb1
    obtain ⟨x, k1, rfl⟩ := ht1
    obtain ⟨c', _, y, k2, rfl⟩ := hb1
    exact isTLV_prefix (isTLV_tlv _ _ _ _ k2) (isTLV_tlv _ _ _ _ k1) _ _ hcon
  rw [hfirst] at hcon
  have h2 := List.append_cancel_left hcon
  subst h2
  exact primitive_any _ _ rfl rfl v2 w2 b2 (by simpa [encode, Mode.isOpt] using hb2) he2

/-- It is written, with `81` where DER has `A1`. -/
example : encode Rfc2634.SecurityCategory.call.ty (.record (.ofList [.oid [1, 2, 3], .octets [4, 1, 9]])) =
    some [0x30, 9, 0x80, 2, 42, 3, 0x81, 3, 4, 1, 9] := by decide +kernel

/-! ## C36 -/

/-- C36: every DER encoding of a legal value, made by whatever encoder, followed by anything, is read as that
value (up to the order in SET OFs), leaving what follows. -/
theorem der_decodes (c : String × Ty) (hc : c ∈ Package.types) (hd : c.1 ∉ Package.defective)
    (v : Val) (b : Bytes) (hv : c.2.valid v = true) (he : encodes c.2 v b) :
    ∃ w, c.2.reorder v w ∧ ∀ rest, decode c.2 (b ++ rest) = some (w, rest) := by
  obtain ⟨x, w, h1, _, h3, h4⟩ := dd c.2 v b (Package.wf_of_mem hc hd) hv he
  exact ⟨w, h4, fun rest => by simp only [decode, h1.2 rest, h3]⟩

/-! ## C37 -/

/-- C37: a value has one DER encoding, and that is what is written; provided no OPTIONAL component is an empty
collection and the value has none of the primitive values of `careful`. -/
theorem encode_iff (c : String × Ty) (hc : c ∈ Package.types) (hd : c.1 ∉ Package.defective) (ha : c.1 ∉ primitiveAny)
    (v : Val) (hv : c.2.valid v = true) (hk : care c.2 v) (hn : c.2.kept false v = true) (b : Bytes) :
    encode c.2 v = some b ↔ encodes c.2 v b :=
  ⟨encode_der_kept c hc hd ha v b hv hk hn,
   encT_of c.2 false v b (Package.wf_of_mem hc hd) (Package.stable_of_mem hc) (derOk_of_mem hc ha) hv hk
     (kept_plain c.2 false v hv hn) (by simp)⟩

/-- C37: DER that was made elsewhere is decoded and written again without a change (a signature over it stays
valid). -/
theorem der_rewritten (c : String × Ty) (hc : c ∈ Package.types) (hd : c.1 ∉ Package.defective) (ha : c.1 ∉ primitiveAny)
    (v : Val) (b : Bytes) (hv : c.2.valid v = true) (hk : care c.2 v) (hn : c.2.kept false v = true) (he : encodes c.2 v b) :
    ∃ w, decode c.2 b = some (w, []) ∧ encode c.2 w = some b := by
  obtain ⟨w, h1, _, h3⟩ := Codec.reencode c hc hd v b hv ((encode_iff c hc hd ha v hv hk hn b).2 he)
  exact ⟨w, h1, h3⟩

/-- C37: two encoders that follow DER agree. -/
theorem der_unique (c : String × Ty) (hc : c ∈ Package.types) (hd : c.1 ∉ Package.defective) (ha : c.1 ∉ primitiveAny)
    (v : Val) (hv : c.2.valid v = true) (hk : care c.2 v) (hn : c.2.kept false v = true) (b b' : Bytes)
    (he : encodes c.2 v b) (he' : encodes c.2 v b') : b = b' := by
  have h1 := (encode_iff c hc hd ha v hv hk hn b).2 he
  have h2 := (encode_iff c hc hd ha v hv hk hn b').2 he'
  rw [h1] at h2
  exact Option.some.inj h2

/-! ## The hypotheses are met by real values -/

namespace Examples

open Codec.Examples

-- C35, C37: a name, whose RDN is not in DER order as a value
example : "rfc5280.Name" ∉ Package.defective ∧ "rfc5280.Name" ∉ primitiveAny ∧ Rfc5280.Name.call.ty.valid name = true ∧
    Rfc5280.Name.call.ty.kept false name = true := by decide +kernel

/-- `rfc5280.Validity` from 2026 to 2027. -/
def validity : Val := .record (.ofList [
  .alt 0 (.str "261116000000Z".toList), .alt 1 (.str "20271116000000Z".toList)])

example : Rfc5280.Validity.call.ty.valid validity = true ∧ Rfc5280.Validity.call.ty.kept false validity = true ∧
    "rfc5280.Validity" ∉ Package.defective ∧ "rfc5280.Validity" ∉ primitiveAny := by decide +kernel

/-- It meets `care`. -/
theorem validity_care : care Rfc5280.Validity.call.ty validity := by
  have h : Rfc5280.Validity.call.ty = .seq false ⟨[⟨.universal, true, 16⟩], .inter .nil, []⟩
    (.cons ⟨"notBefore", .req, none⟩ Rfc5280.Time.call.ty (.cons ⟨"notAfter", .req, none⟩ Rfc5280.Time.call.ty .nil)) := by
    decide +kernel
  have h2 : Rfc5280.Time.call.ty = .choice ⟨[], .inter .nil, []⟩
    (.cons ⟨"utcTime", .req, none⟩ (.prim .utcTime ⟨[⟨.universal, false, 23⟩], .inter .nil, []⟩)
    (.cons ⟨"generalTime", .req, none⟩ (.prim .generalizedTime ⟨[⟨.universal, false, 24⟩], .inter .nil, []⟩) .nil)) := by
    decide +kernel
  rw [h, h2]
  simp only [validity, Vals.ofList, care, cares, careAlt, careful, and_true]
  refine ⟨⟨"261116000000".toList, by decide, by decide, ?_⟩, .inl ⟨"20271116000000".toList, by decide, by decide, ?_⟩⟩
  · show ∀ c ∈ "261116000000".toList, '0' ≤ c ∧ c ≤ '9'
    decide
  · show ∀ c ∈ "20271116000000".toList, '0' ≤ c ∧ c ≤ '9'
    decide

theorem validity_mem : ("rfc5280.Validity", Rfc5280.Validity.call.ty) ∈ Package.types :=
  Package.mem_types (m := Rfc5280.asModule) (c := ("rfc5280.Validity", Rfc5280.Validity))
    (by simp [Package.modules]) (by simp [Rfc5280.asModule, Rfc5280.classes])

/-- C35, C36, C37: the hypotheses hold for it, and it has a DER encoding. -/
theorem validity_der : ∃ b, encodes Rfc5280.Validity.call.ty validity b := by
  cases he : encode Rfc5280.Validity.call.ty validity with
  | none => exact absurd he (by decide +kernel)
  | some b =>
    exact ⟨b, encode_der_kept ("rfc5280.Validity", Rfc5280.Validity.call.ty) validity_mem (by decide) (by decide)
      validity b (by decide +kernel) validity_care (by decide +kernel) he⟩

-- C35: empty `certs` of `rfc5652.OriginatorInfo` are dropped, so `kept` matters
example : Rfc5652.OriginatorInfo.call.ty.valid (.record (.ofList [.list .nil, .absent])) = true ∧
    Rfc5652.OriginatorInfo.call.ty.kept false (.record (.ofList [.list .nil, .absent])) = false ∧
    Rfc5652.OriginatorInfo.call.ty.drop false (.record (.ofList [.list .nil, .absent])) = .record (.ofList [.absent, .absent]) ∧
    encode Rfc5652.OriginatorInfo.call.ty (.record (.ofList [.list .nil, .absent])) = some [48, 0] ∧
    decode Rfc5652.OriginatorInfo.call.ty [48, 2, 160, 0] = some (.record (.ofList [.list .nil, .absent]), []) := by
  decide +kernel

-- `careful` matters: KeyUsage with a trailing zero bit, a UTCTime without seconds
example : encode Rfc5280.KeyUsage.call.ty (.bits [true, false]) = some [3, 2, 6, 128] ∧
    encode Rfc5280.KeyUsage.call.ty (.bits [true]) = some [3, 2, 7, 128] := by decide +kernel

end Examples

end Encoding
end Props
end Verif
