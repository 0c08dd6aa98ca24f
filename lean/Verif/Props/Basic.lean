import Verif.Asn1.BasicDer
import Verif.Asn1.BasicSame
import Verif.Asn1.BasicAdmits
import Verif.Asn1.BasicNoTrue
import Verif.Props.Ber
import Verif.Props.Constraint

/-!
# The BER codec

C69: what the BER decoder accepts, what the BER encoder writes, and how they go together with the DER codec.
-/

namespace Verif
namespace Props
namespace BasicRules

open Asn1

abbrev Octets := Der.Octets

/-! ## Writing and reading back -/

/-- C69: every valid value of every class can be written in BER, and is read back exactly, whatever follows: nothing
is reordered, nothing empty is left out, times are as they were. -/
theorem roundtrip (c : String × Ty) (hc : c ∈ Package.types) (hd : c.1 ∉ Package.defective)
    (v : Val) (hv : c.2.validText v = true) (hs : c.2.weight v < Codec.maxOctets) :
    ∃ b, berEncode c.2 v = some b ∧ b.length ≤ c.2.weight v ∧ ∀ rest, berDecode c.2 (b ++ rest) = some (v, rest) := by
  have hw := Package.wf_of_mem hc hd
  obtain ⟨b, h1, h2⟩ := benc_total c.2 v hv hs
  exact ⟨b, h1, h2, fun rest => basic_decode c.2 v b rest hw (benc_reads c.2 v b hw hv h1)⟩

/-- C69: what is written is a BER encoding of the value. -/
theorem written (c : String × Ty) (hc : c ∈ Package.types) (hd : c.1 ∉ Package.defective)
    (v : Val) (hv : c.2.validText v = true) (b : Bytes) (hb : berEncode c.2 v = some b) : Basic.reads false c.2 v b :=
  benc_reads c.2 v b (Package.wf_of_mem hc hd) hv hb

/-- C69: different values are written differently. -/
theorem injective (c : String × Ty) (hc : c ∈ Package.types) (hd : c.1 ∉ Package.defective)
    (v w : Val) (hv : c.2.validText v = true) (hw : c.2.validText w = true) (b : Bytes)
    (h : berEncode c.2 v = some b) (h' : berEncode c.2 w = some b) : v = w := by
  have hf := Package.wf_of_mem hc hd
  have h1 := basic_decode c.2 v b [] hf (written c hc hd v hv b h)
  rw [basic_decode c.2 w b [] hf (written c hc hd w hw b h')] at h1
  simpa [eq_comm] using h1

/-- A valid value in the sense of the DER codec is one here. -/
theorem valid (t : Ty) (v : Val) (h : t.valid v = true) : t.validText v = true := valid_text t v h

/-! ## What is accepted -/

/-- C69: whatever class is asked for and whatever octets are given: if they are accepted, the octets consumed are a
BER encoding (in the sense of `Basic.reads`) of the value returned, and the rest is what follows them. -/
theorem accepted (c : String × Ty) (hc : c ∈ Package.types) (b : Bytes) (v : Val) (rest : Bytes)
    (h : berDecode c.2 b = some (v, rest)) : ∃ p, b = p ++ rest ∧ Basic.reads true c.2 v p :=
  berDecode_basic c.2 b v rest (List.all_eq_true.1 Reading.sets_ok c hc) h

/-- C69: every BER encoding in that sense, with definite or indefinite lengths, with strings in pieces, with any octet
but 0 for TRUE, is read as the value, and what follows is left alone. -/
theorem ber_read (c : String × Ty) (hc : c ∈ Package.types) (hd : c.1 ∉ Package.defective) (v : Val) (p rest : Bytes)
    (h : Basic.reads false c.2 v p) : berDecode c.2 (p ++ rest) = some (v, rest) :=
  basic_decode c.2 v p rest (Package.wf_of_mem hc hd) h

/-- C69: octets have one reading. -/
theorem ber_unique (c : String × Ty) (hc : c ∈ Package.types) (hd : c.1 ∉ Package.defective) (v w : Val) (p : Bytes)
    (h : Basic.reads false c.2 v p) (h' : Basic.reads false c.2 w p) : v = w := by
  have h1 := ber_read c hc hd v p [] h
  rw [ber_read c hc hd w p [] h'] at h1
  simpa [eq_comm] using h1

mutual
theorem strict_of_lax : ∀ (t : Ty) (v : Val) (b : Octets), Reading.definite t = true → Basic.reads true t v b → Basic.reads false t v b
  | .prim k a, v, b, hd, h => by
    by_cases hk : k = .any
    · subst hk
      simp only [Basic.reads] at h ⊢
      exact Reading.strict_of_lax _ v b hd h
    · cases k <;> first | exact absurd rfl hk | exact h
  | .seq s a cs, v, b, hd, h => by
    cases v <;> simp only [Basic.reads] at h ⊢ <;> try exact h
    simp only [Reading.definite] at hd
    obtain ⟨⟨es, ind, h1, h2⟩, h3⟩ := h
    refine ⟨⟨es, ind, h1, ?_⟩, h3⟩
    cases s with
    | false =>
      simp only [Bool.false_eq_true, if_false] at h2 ⊢
      exact strict_of_laxC cs _ es hd h2
    | true =>
      simp only [if_true] at h2 ⊢
      obtain ⟨hs, g1, g2⟩ := h2
      exact ⟨hs, each2_imp (fun (h : Nat × Val) e => strict_of_laxA cs h.1 h.2 e hd) g1, g2⟩
  | .of s a t, v, b, hd, h => by
    cases v <;> simp only [Basic.reads] at h ⊢ <;> try exact h
    simp only [Reading.definite] at hd
    obtain ⟨es, ind, h1, h2⟩ := h
    refine ⟨es, ind, h1, ?_⟩
    rw [each2_all2] at h2 ⊢
    exact all2_imp (fun v b => strict_of_lax t v b hd) h2
  | .choice a cs, v, b, hd, h => by
    cases v <;> simp only [Basic.reads] at h ⊢ <;> try exact h
    simp only [Reading.definite] at hd
    split at h
    · rename_i ht; rw [if_pos ht]; exact strict_of_laxA cs _ _ _ hd h
    · rename_i ht
      rw [if_neg ht]
      obtain ⟨k, c, h1, h2⟩ := h
      exact ⟨k, c, strict_of_laxA cs _ _ _ hd h1, h2⟩
  | .bad _, v, b, _, h => by simp [Basic.reads] at h
theorem strict_of_laxC : ∀ (cs : Comps) (vs : Vals) (es : List Octets), Reading.definiteC cs = true → Basic.components true cs vs es →
    Basic.components false cs vs es
  | .nil, vs, es, _, h => by cases vs <;> simp [Basic.components] at h ⊢; exact h
  | .cons f t cs, .nil, es, _, h => by simp [Basic.components] at h
  | .cons f t cs, .cons v vs, es, hd, h => by
    simp only [Reading.definiteC, Bool.and_eq_true] at hd
    simp only [Basic.components] at h ⊢
    rcases h with ⟨e, es', h1, h2, h3⟩ | ⟨h1, h2⟩
    · exact Or.inl ⟨e, es', h1, strict_of_lax t v e hd.1 h2, strict_of_laxC cs vs es' hd.2 h3⟩
    · exact Or.inr ⟨strict_of_laxC cs vs es hd.2 h1, h2⟩
theorem strict_of_laxA : ∀ (cs : Comps) (i : Nat) (v : Val) (b : Octets), Reading.definiteC cs = true → Basic.alternative true cs i v b →
    Basic.alternative false cs i v b
  | .nil, _, _, _, _, h => by simp [Basic.alternative] at h
  | .cons _ t cs, 0, v, b, hd, h => by
    simp only [Reading.definiteC, Bool.and_eq_true] at hd
    simp only [Basic.alternative] at h ⊢
    exact strict_of_lax t v b hd.1 h
  | .cons _ t cs, i + 1, v, b, hd, h => by
    simp only [Reading.definiteC, Bool.and_eq_true] at hd
    simp only [Basic.alternative] at h ⊢
    exact strict_of_laxA cs i v b hd.2 h
end

/-- C69: for types without tagged ANYs inside (1520 of the 1832 classes, `Reading.definite_count`), accepted is exactly
what the relation says. -/
theorem decode_iff (c : String × Ty) (hc : c ∈ Package.types) (hd : c.1 ∉ Package.defective) (ht : Reading.definite c.2 = true)
    (b rest : Bytes) (v : Val) : berDecode c.2 b = some (v, rest) ↔ ∃ p, b = p ++ rest ∧ Basic.reads true c.2 v p := by
  constructor
  · exact accepted c hc b v rest
  · rintro ⟨p, rfl, h⟩
    exact ber_read c hc hd v p rest (strict_of_lax c.2 v p ht h)

/-! ## Neither too little nor too much is consumed -/

theorem element_append (b s : Bytes) (x : Elt) (r : Bytes) (h : readElt b = some (x, r)) : readElt (b ++ s) = some (x, r ++ s) := by
  obtain ⟨h1, h2⟩ := readElt_raw b x r h
  have := element_isElt _ _ _ _ _ _ h2
  rw [h1, List.append_assoc]
  exact isElt_read this (r ++ s)

/-- C69: octets that follow are left alone, for every type. -/
theorem decode_append (t : Ty) (b r s : Bytes) (v : Val) (h : berDecode t b = some (v, r)) : berDecode t (b ++ s) = some (v, r ++ s) := by
  simp only [berDecode] at h ⊢
  cases h1 : readElt b with
  | none => simp [h1] at h
  | some p =>
    obtain ⟨x, r'⟩ := p
    simp only [h1] at h
    simp only [element_append b s x r' h1]
    cases h2 : bdecT t x with
    | none => simp [h2] at h
    | some w =>
      simp only [h2, Option.some.injEq, Prod.mk.injEq] at h
      rw [h.1, h.2]

/-- C69: a proper prefix of anything that is read completely is refused, by every type. -/
theorem prefix_refused (t u : Ty) (p s : Bytes) (v : Val) (h : berDecode t (p ++ s) = some (v, [])) (hs : s ≠ []) :
    berDecode u p = none := by
  cases hp : berDecode u p with
  | none => rfl
  | some q =>
    obtain ⟨w, r⟩ := q
    have h1 := decode_append u p r s w hp
    unfold berDecode at h h1
    cases hr : readElt (p ++ s) with
    | none => simp [hr] at h
    | some x =>
      obtain ⟨x, r'⟩ := x
      simp only [hr] at h h1
      cases hd : bdecT t x with
      | none => simp [hd] at h
      | some _ =>
        simp only [hd, Option.some.injEq, Prod.mk.injEq] at h
        cases hd' : bdecT u x with
        | none => simp [hd'] at h1
        | some _ =>
          simp only [hd', Option.some.injEq, Prod.mk.injEq] at h1
          have : r ++ s = [] := by rw [← h1.2, h.2]
          exact absurd (List.append_eq_nil_iff.1 this).2 hs

/-! ## Against the DER codec -/

/-- C69: the BER decoder reads everything the DER decoder reads, as the same value. -/
theorem extends_der (t : Ty) (b : Bytes) (v : Val) (rest : Bytes) (h : decode t b = some (v, rest)) :
    berDecode t b = some (v, rest) := berDecode_extends t b v rest h

/-- C69: where the BER decoder reads a value the DER decoder reads no other. -/
theorem never_differs (t : Ty) (b : Bytes) (v w : Val) (rest r : Bytes) (h : berDecode t b = some (v, rest))
    (h' : decode t b = some (w, r)) : w = v ∧ r = rest := by
  have := extends_der t b w r h'
  rw [h] at this
  simpa [eq_comm] using this

/-- C69: the two encoders write the same, whatever the value, for types without BOOLEANs, times, SETs, SET OFs and
structured OPTIONAL components. -/
theorem same_octets (t : Ty) (ht : t.alike false = true) (v : Val) : berEncode t v = encode t v := berEncode_alike t v ht

/-- How many classes that is. -/
theorem alike_count : (Package.types.filter (fun c => c.2.alike false)).length = 1043 := by decide +kernel

/-- C69: every value the BER decoder returns, for any type and any octets, obeys the type, as with the DER decoder. -/
theorem obeyed (t : Ty) (b r : Bytes) (v : Val) (h : berDecode t b = some (v, r)) : Spec.Obeys t v :=
  Props.Constraint.obeys_iff t v (berDecode_admits t b r v h)

/-- C69: whichever BER encoding of a valid value is read, writing the result in DER gives the same octets; doing it
again to these changes nothing. -/
theorem to_der (c : String × Ty) (hc : c ∈ Package.types) (hd : c.1 ∉ Package.defective) (v : Val) (hv : c.2.valid v = true)
    (hs : c.2.weight v < Codec.maxOctets) : ∃ d, encode c.2 v = some d ∧
      (∀ p rest, Basic.reads false c.2 v p → (berDecode c.2 (p ++ rest)).bind (fun x => encode c.2 x.1) = some d) ∧
      (c.2.stable = true → ∀ rest, (berDecode c.2 (d ++ rest)).bind (fun x => encode c.2 x.1) = some d) := by
  obtain ⟨d, w, h1, _, h3, h4⟩ := Codec.roundtrip_ty c.2 (Package.wf_of_mem hc hd) v hv hs
  refine ⟨d, h1, fun p rest h => ?_, fun hst rest => ?_⟩
  · rw [ber_read c hc hd v p rest h]; exact h1
  · rw [berDecode_extends c.2 _ _ _ (h3 rest)]; exact (h4 hst).1

/-- C69: what is written in BER is read by the DER decoder too, if no BOOLEAN in it is TRUE (`true_differs`). -/
theorem der_reads (c : String × Ty) (hc : c ∈ Package.types) (hd : c.1 ∉ Package.defective) (v : Val) (hv : c.2.validText v = true)
    (hn : c.2.noTrue v = true) (b rest : Bytes) (hb : berEncode c.2 v = some b) : decode c.2 (b ++ rest) = some (v, rest) :=
  have hw := Package.wf_of_mem hc hd
  ber_decode c.2 v b rest hw (benc_reads_der c.2 v b hw hv hn hb)

/-- C69: TRUE is where they differ: BER writes 1, which the DER decoder refuses and the BER decoder takes. -/
theorem true_differs (a : Attrs) (t : Tag) (ha : a.tags = [t]) (hp : t.constructed = false) (hs : a.spec.ok (.simple (.int 1)) = true)
    (b : Bytes) (hb : berEncode (.prim .boolean a) (.int 1) = some b) :
    berDecode (.prim .boolean a) b = some (.int 1, []) ∧ decode (.prim .boolean a) b = none := by
  have h1 : tlv t false [1] = some b := by
    simp only [berEncode, benc, bencPrim, ha, wrap] at hb
    cases h : tlv t false [1] with
    | none => simp [h] at hb
    | some e => simpa [h] using hb
  have he := tlv_element t false [1] b h1
  constructor
  · have hw : (Ty.prim .boolean a).wf = true := by simp [Ty.wf, ha, primTags, hp]
    have := benc_reads (.prim .boolean a) (.int 1) b hw (by simp [Ty.validText, Ty.asText, Ty.valid, Prim.asText, primLegal, hs]) hb
    simpa using basic_decode _ _ _ [] hw this
  · have hx := element_of _ _ _ _ _ he
    have h2 := hx.2 []
    rw [List.append_nil] at h2
    simp only [decode, h2, decT, decPrimT, ha]
    simp [unwrap, TLV.has, decPrim, hp]

/-! ## Definite and indefinite lengths -/

/-- C69: in a constructed encoding the length may be definite or indefinite, without any difference: SEQUENCE and SET. -/
theorem indefinite_same (s : Bool) (a : Attrs) (cs : Comps) (t : Tag) (ha : a.tags = [t]) (v : Val) (contents b b' : Octets)
    (hb : Ber.Element t.cls t.num true contents b) (hb' : Basic.Indefinite t.cls t.num true contents b')
    (h : Basic.reads false (.seq s a cs) v b) : Basic.reads false (.seq s a cs) v b' := by
  cases v <;> simp only [Basic.reads] at h ⊢ <;> try exact h
  rw [ha] at h ⊢
  obtain ⟨⟨es, ind, ⟨e, h1, h2⟩, h3⟩, h4⟩ := h
  simp only [Basic.Around] at h2
  subst h2
  have g1 := element_isElt _ _ _ _ _ _ h1
  have g2 := element_isElt t.cls t.num true false contents b (by simpa [Basic.Element] using hb)
  have := isElt_read g1 []
  rw [isElt_read g2 []] at this
  simp only [Option.some.injEq, Prod.mk.injEq, Elt.mk.injEq, TLV.mk.injEq, and_true, true_and] at this
  refine ⟨⟨es, true, ⟨b', ?_, rfl⟩, h3⟩, h4⟩
  simp only [Basic.Element, if_true, ← this.1]
  exact hb'

/-- And SEQUENCE OF and SET OF. -/
theorem indefinite_same_of (s : Bool) (a : Attrs) (u : Ty) (t : Tag) (ha : a.tags = [t]) (v : Val) (contents b b' : Octets)
    (hb : Ber.Element t.cls t.num true contents b) (hb' : Basic.Indefinite t.cls t.num true contents b')
    (h : Basic.reads false (.of s a u) v b) : Basic.reads false (.of s a u) v b' := by
  cases v <;> simp only [Basic.reads] at h ⊢ <;> try exact h
  rw [ha] at h ⊢
  obtain ⟨es, ind, ⟨e, h1, h2⟩, h3⟩ := h
  simp only [Basic.Around] at h2
  subst h2
  have g1 := element_isElt _ _ _ _ _ _ h1
  have g2 := element_isElt t.cls t.num true false contents b (by simpa [Basic.Element] using hb)
  have := isElt_read g1 []
  rw [isElt_read g2 []] at this
  simp only [Option.some.injEq, Prod.mk.injEq, Elt.mk.injEq, TLV.mk.injEq, and_true, true_and] at this
  refine ⟨es, true, ⟨b', ?_, rfl⟩, h3⟩
  simp only [Basic.Element, if_true, ← this.1]
  exact hb'

/-- C69: an OCTET STRING may come in any number of pieces, of any lengths, with definite or indefinite length around
them, without any difference. -/
theorem pieces_same (a : Attrs) (t : Tag) (ha : a.tags = [t]) (hp : t.constructed = false) (ps : List Octets) (es : List Octets)
    (hs : a.spec.ok (.simple (.octets ps.flatten)) = true)
    (he : Der.each2 (fun p e => Ber.Element .universal 4 false p e) ps es) (form ind : Bool) (hf : form = true ∨ ind = true) (b rest : Octets)
    (hb : Basic.Element t.cls t.num form ind es.flatten b) :
    berDecode (.prim .octetString a) (b ++ rest) = some (.octets ps.flatten, rest) := by
  refine basic_decode _ _ _ _ (by simp [Ty.wf, ha, primTags, hp]) ?_
  simp only [Basic.reads, ha]
  exact ⟨Or.inr ⟨es, form, ind, hf, ⟨ps, he, rfl⟩, b, hb, rfl⟩, hs⟩

/-! ## Examples -/

/-- A response of SNMP: the object 1.3.6 has the value 42. -/
def reply : Val :=
  .record (.ofList [.int 0, .octets [112, 117, 98], .alt 2 (.record (.ofList [.int 7, .int 0, .int 0,
    .list (.ofList [.record (.ofList [.oid [1, 3, 6], .alt 0 (.alt 0 (.int 42))])])]))])

/-- It is written with definite lengths. -/
def replyDefinite : Bytes :=
  [0x30, 30, 2, 1, 0, 4, 3, 112, 117, 98, 0xa2, 20, 2, 1, 7, 2, 1, 0, 2, 1, 0, 0x30, 9, 0x30, 7, 6, 2, 0x2b, 6, 2, 1, 42]

/-- The same with indefinite lengths and the community in two pieces. -/
def replyIndefinite : Bytes :=
  [0x30, 0x80, 2, 1, 0, 0x24, 0x80, 4, 1, 112, 4, 2, 117, 98, 0, 0, 0xa2, 0x80, 2, 1, 7, 2, 1, 0, 2, 1, 0,
    0x30, 0x80, 0x30, 0x80, 6, 2, 0x2b, 6, 2, 1, 42, 0, 0, 0, 0, 0, 0, 0, 0]

-- `roundtrip`, `ber_read`, `extends_der`
example : Rfc1157.Message.call.ty.validText reply = true ∧ berEncode Rfc1157.Message.call.ty reply = some replyDefinite ∧
    berDecode Rfc1157.Message.call.ty (replyDefinite ++ [5, 0]) = some (reply, [5, 0]) ∧
    berDecode Rfc1157.Message.call.ty (replyIndefinite ++ [5, 0]) = some (reply, [5, 0]) ∧
    decode Rfc1157.Message.call.ty (replyIndefinite ++ [5, 0]) = none := by decide +kernel

-- `prefix_refused`: without the last end-of-contents octets
example : berDecode Rfc1157.Message.call.ty (replyIndefinite.take 44) = none := by decide +kernel

/-- A SET OF out of order. -/
def algorithms : Val := .list (.ofList [.record (.ofList [.oid [2, 5], .absent]), .record (.ofList [.oid [1, 3], .absent])])

-- `roundtrip`: the order is kept, where DER sorts
example : Rfc2315.DigestAlgorithmIdentifiers.call.ty.validText algorithms = true ∧
    berEncode Rfc2315.DigestAlgorithmIdentifiers.call.ty algorithms = some [49, 10, 48, 3, 6, 1, 85, 48, 3, 6, 1, 43] ∧
    encode Rfc2315.DigestAlgorithmIdentifiers.call.ty algorithms = some [49, 10, 48, 3, 6, 1, 43, 48, 3, 6, 1, 85] := by
  decide +kernel

-- `to_der`, `der_reads`: the SET OF above, and a critical extension
example : Rfc2315.DigestAlgorithmIdentifiers.call.ty.valid algorithms = true ∧ Rfc2315.DigestAlgorithmIdentifiers.call.ty.stable = true ∧
    Rfc2315.DigestAlgorithmIdentifiers.call.ty.noTrue algorithms = true ∧
    decode Rfc2315.DigestAlgorithmIdentifiers.call.ty [49, 10, 48, 3, 6, 1, 85, 48, 3, 6, 1, 43, 7] = some (algorithms, [7]) ∧
    Rfc5280.Extension.call.ty.noTrue (.record (.ofList [.oid [2, 5], .int 0, .octets [1]])) = true ∧
    Rfc5280.Extension.call.ty.noTrue (.record (.ofList [.oid [2, 5], .int 1, .octets [1]])) = false ∧
    ((berEncode Rfc5280.Extension.call.ty (.record (.ofList [.oid [2, 5], .int 1, .octets [1]]))).bind
      (decode Rfc5280.Extension.call.ty)) = none := by decide +kernel

-- `same_octets`: SNMP messages
example : Rfc1157.Message.call.ty.alike false = true := by decide +kernel

-- `pieces_same`: two pieces, indefinite length
example : Basic.Element .universal 4 true true ([[4, 1, 112], [4, 2, 117, 98]] : List Octets).flatten [0x24, 0x80, 4, 1, 112, 4, 2, 117, 98, 0, 0] ∧
    Der.each2 (fun p e => Ber.Element .universal 4 false p e) [[112], [117, 98]] [[4, 1, 112], [4, 2, 117, 98]] := by
  have e1 : Ber.Element .universal 4 false [112] [4, 1, 112] := tlv_element ⟨.universal, false, 4⟩ false [112] _ (by decide)
  have e2 : Ber.Element .universal 4 false [117, 98] [4, 2, 117, 98] := tlv_element ⟨.universal, false, 4⟩ false [117, 98] _ (by decide)
  refine ⟨?_, e1, e2, trivial⟩
  simp only [Basic.Element, if_true]
  refine ⟨[0x24], [[4, 1, 112], [4, 2, 117, 98]], ?_, ?_, ?_, rfl, rfl⟩
  · exact .low (by decide)
  · intro e he
    simp only [List.mem_cons, List.not_mem_nil, or_false] at he
    rcases he with rfl | rfl
    · exact .definite _ _ _ _ _ e1
    · exact .definite _ _ _ _ _ e2
  · decide

end BasicRules
end Props
end Verif
