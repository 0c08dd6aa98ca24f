import Verif.Package.Types
import Verif.Asn1.BerRead
import Verif.Props.Codec

/-!
# What is accepted

C38 (nothing else is accepted) and C39 (all of it is accepted), against the declarative reading relation of
`Verif/Spec/Ber.lean`.
-/

namespace Verif
namespace Props
namespace Reading

open Asn1

abbrev Octets := Der.Octets

/-! ## C38 -/

/-- The SETs of every class of the package have components that can be told apart. -/
theorem sets_ok : Package.types.all (fun c => c.2.setsOk) = true := by decide +kernel

/-- C38: whatever class is asked for, whatever octets are given: if they are accepted, the octets consumed are a BER
encoding (in the sense of `Ber.reads`) of the value returned, and the rest is what follows them. -/
theorem accepted (c : String × Ty) (hc : c ∈ Package.types) (b : Bytes) (v : Val) (rest : Bytes) (h : decode c.2 b = some (v, rest)) :
    ∃ p, b = p ++ rest ∧ Ber.reads true c.2 v p := decode_ber c.2 b v rest (List.all_eq_true.1 sets_ok c hc) h

/-- The same for any type whose SETs can be told apart. -/
theorem accepted_any (t : Ty) (hs : t.setsOk = true) (b : Bytes) (v : Val) (rest : Bytes) (h : decode t b = some (v, rest)) :
    ∃ p, b = p ++ rest ∧ Ber.reads true t v p := decode_ber t b v rest hs h

/-- C38: a BOOLEAN is 00 or FF; every other octet is refused. -/
theorem boolean_strict (a : Attrs) (t : Tag) (ha : a.tags = [t]) (x : UInt8) (h0 : x ≠ 0) (h1 : x ≠ 255) (v : Val)
    (b rest : Bytes) (he : Ber.Element t.cls t.num false [x] b) : decode (.prim .boolean a) (b ++ rest) ≠ some (v, rest) := by
  intro h
  have hx := element_of _ _ _ _ _ he
  simp only [decode, hx.2 rest, decT, decPrimT, ha] at h
  simp [unwrap, TLV.has, decPrim, h0, h1] at h

/-- C38: the indefinite form of the length is refused at the top, whatever the type. -/
theorem indefinite_refused (t : Ty) (c : Cls) (k : Bool) (n : Nat) (i r : Bytes) (hi : Ber.Identifier c k n i) :
    decode t (i ++ 0x80 :: r) = none := by
  have h1 := (readTag_of c k n i (0x80 :: r) hi).1
  simp [decode, readTLV, h1, readLen]

/-! ## C39 -/

/-- C39: every octet string that is a BER encoding in that sense (but for the laxity that makes the reading
ambiguous) is read as the value, and what follows is left alone. -/
theorem ber_read (c : String × Ty) (hc : c ∈ Package.types) (hd : c.1 ∉ Package.defective) (v : Val) (p rest : Bytes)
    (h : Ber.reads false c.2 v p) : decode c.2 (p ++ rest) = some (v, rest) :=
  ber_decode c.2 v p rest (Package.wf_of_mem hc hd) h

/-- C39: octets have one reading. -/
theorem ber_unique (c : String × Ty) (hc : c ∈ Package.types) (hd : c.1 ∉ Package.defective) (v w : Val) (p : Bytes)
    (h : Ber.reads false c.2 v p) (h' : Ber.reads false c.2 w p) : v = w := by
  have h1 := ber_read c hc hd v p [] h
  rw [ber_read c hc hd w p [] h'] at h1
  simpa [eq_comm] using h1

mutual
/-- The type has no tagged ANY inside: then nothing that is accepted is ambiguous. -/
def definite : Ty → Bool
  | .prim k a => k != .any || a.tags.isEmpty
  | .seq _ _ cs => definiteC cs
  | .of _ _ t => definite t
  | .choice _ cs => definiteC cs
  | .bad _ => true
def definiteC : Comps → Bool
  | .nil => true
  | .cons _ t cs => definite t && definiteC cs
end

mutual
theorem strict_of_lax : ∀ (t : Ty) (v : Val) (b : Octets), definite t = true → Ber.reads true t v b → Ber.reads false t v b
  | .prim k a, v, b, hd, h => by
    by_cases hk : k = .any
    · subst hk
      simp only [definite, bne_self_eq_false, Bool.false_or, List.isEmpty_iff] at hd
      simp only [Ber.reads, hd] at h ⊢
      exact h
    · cases k <;> first | exact absurd rfl hk | exact h
  | .seq s a cs, v, b, hd, h => by
    cases v <;> simp only [Ber.reads] at h ⊢ <;> try exact h
    simp only [definite] at hd
    obtain ⟨⟨es, h1, h2⟩, h3⟩ := h
    refine ⟨⟨es, h1, ?_⟩, h3⟩
    cases s with
    | false =>
      simp only [Bool.false_eq_true, if_false] at h2 ⊢
      exact strict_of_laxC cs _ es hd h2
    | true =>
      simp only [if_true] at h2 ⊢
      obtain ⟨hs, g1, g2⟩ := h2
      exact ⟨hs, each2_imp (fun (h : Nat × Val) e => strict_of_laxA cs h.1 h.2 e hd) g1, g2⟩
  | .of s a t, v, b, hd, h => by
    cases v <;> simp only [Ber.reads] at h ⊢ <;> try exact h
    simp only [definite] at hd
    obtain ⟨es, h1, h2⟩ := h
    refine ⟨es, h1, ?_⟩
    rw [each2_all2] at h2 ⊢
    exact all2_imp (fun v b => strict_of_lax t v b hd) h2
  | .choice a cs, v, b, hd, h => by
    cases v <;> simp only [Ber.reads] at h ⊢ <;> try exact h
    simp only [definite] at hd
    split at h
    · rename_i ht; rw [if_pos ht]; exact strict_of_laxA cs _ _ _ hd h
    · rename_i ht
      rw [if_neg ht]
      obtain ⟨k, c, j, h1, h2⟩ := h
      exact ⟨k, c, j, strict_of_laxA cs _ _ _ hd h1, h2⟩
  | .bad _, v, b, _, h => by simp [Ber.reads] at h
theorem strict_of_laxC : ∀ (cs : Comps) (vs : Vals) (es : List Octets), definiteC cs = true → Ber.components true cs vs es →
    Ber.components false cs vs es
  | .nil, vs, es, _, h => by cases vs <;> simp [Ber.components] at h ⊢; exact h
  | .cons f t cs, .nil, es, _, h => by simp [Ber.components] at h
  | .cons f t cs, .cons v vs, es, hd, h => by
    simp only [definiteC, Bool.and_eq_true] at hd
    simp only [Ber.components] at h ⊢
    rcases h with ⟨e, es', h1, h2, h3⟩ | ⟨h1, h2⟩
    · exact Or.inl ⟨e, es', h1, strict_of_lax t v e hd.1 h2, strict_of_laxC cs vs es' hd.2 h3⟩
    · exact Or.inr ⟨strict_of_laxC cs vs es hd.2 h1, h2⟩
theorem strict_of_laxA : ∀ (cs : Comps) (i : Nat) (v : Val) (b : Octets), definiteC cs = true → Ber.alternative true cs i v b →
    Ber.alternative false cs i v b
  | .nil, _, _, _, _, h => by simp [Ber.alternative] at h
  | .cons _ t cs, 0, v, b, hd, h => by
    simp only [definiteC, Bool.and_eq_true] at hd
    simp only [Ber.alternative] at h ⊢
    exact strict_of_lax t v b hd.1 h
  | .cons _ t cs, i + 1, v, b, hd, h => by
    simp only [definiteC, Bool.and_eq_true] at hd
    simp only [Ber.alternative] at h ⊢
    exact strict_of_laxA cs i v b hd.2 h
end

/-- C38, C39: for types without tagged ANYs inside, accepted is exactly what the relation says. -/
theorem decode_iff (c : String × Ty) (hc : c ∈ Package.types) (hd : c.1 ∉ Package.defective) (ht : definite c.2 = true)
    (b rest : Bytes) (v : Val) : decode c.2 b = some (v, rest) ↔ ∃ p, b = p ++ rest ∧ Ber.reads true c.2 v p := by
  constructor
  · exact accepted c hc b v rest
  · rintro ⟨p, rfl, h⟩
    exact ber_read c hc hd v p rest (strict_of_lax c.2 v p ht h)

/-- How many classes that is. -/
theorem definite_count : (Package.types.filter (fun c => definite c.2)).length = 1520 ∧ Package.types.length = 1832 := by decide +kernel

/-! ## Consequences: components given twice -/

/-- C38, C39: elements of a SET for the same component, with elements for others around them: the last one counts,
whatever came before it.  (X.690 8.11 has each component once.) -/
theorem set_last (a : Attrs) (cs : Comps) (hw : (Ty.seq true a cs).wf = true) (vs : Vals) (hs : List (Nat × Val))
    (es : List Bytes) (b rest : Bytes) (hb : Ber.Tagged true a.tags es.flatten b)
    (he : Der.each2 (fun h e => Ber.alternative false cs h.1 h.2 e) hs es) (hv : Ber.settled cs vs hs)
    (hok : a.spec.ok (.mapping (Ber.present cs vs).length (Ber.present cs vs)) = true) :
    decode (.seq true a cs) (b ++ rest) = some (.record vs, rest) :=
  ber_decode _ _ _ _ hw ⟨⟨es, hb, hs, he, hv⟩, fun _ => hok⟩

/-- An `ESSSecurityLabel` that says it is top secret and then unclassified is unclassified. -/
example : decode Rfc2634.ESSSecurityLabel.call.ty [0x31, 9, 2, 1, 5, 6, 1, 42, 2, 1, 1] =
    some (.record (.ofList [.oid [1, 2], .int 1, .absent, .absent]), []) := by decide +kernel

/-- The other way round it is top secret. -/
example : decode Rfc2634.ESSSecurityLabel.call.ty [0x31, 9, 2, 1, 1, 6, 1, 42, 2, 1, 5] =
    some (.record (.ofList [.oid [1, 2], .int 5, .absent, .absent]), []) := by decide +kernel

/-! ## Consequences: DEFAULTs that are written out -/

def extensionLike : Ty :=
  .seq false ⟨[⟨.universal, true, 16⟩], .inter .nil, []⟩
    (.cons ⟨"extnID", .req, none⟩ (.prim .oid ⟨[⟨.universal, false, 6⟩], .inter .nil, []⟩)
    (.cons ⟨"critical", .dflt (.int 0), none⟩ Py.univ.Boolean.call.ty
    (.cons ⟨"extnValue", .req, none⟩ (.prim .octetString ⟨[⟨.universal, false, 4⟩], .inter .nil, []⟩) .nil)))

theorem extension_5280 : Rfc5280.Extension.call.ty = extensionLike := by decide +kernel

/-- C39: an `Extension` whose `critical` is FALSE is read the same whether or not the FALSE is there, as some
certificate authorities write it although DER forbids it. -/
theorem extension_false (oid : List Nat) (val : Bytes) (e1 e3 b b' rest : Bytes)
    (h1 : Ber.reads false Py.univ.ObjectIdentifier.call.ty (.oid oid) e1)
    (h3 : Ber.reads false Py.univ.OctetString.call.ty (.octets val) e3)
    (hb : Ber.Element .universal 16 true (e1 ++ e3) b)
    (hb' : Ber.Element .universal 16 true (e1 ++ ([0x01, 0x01, 0x00] ++ e3)) b') :
    decode Rfc5280.Extension.call.ty (b ++ rest) = some (.record (.ofList [.oid oid, .int 0, .octets val]), rest) ∧
    decode Rfc5280.Extension.call.ty (b' ++ rest) = some (.record (.ofList [.oid oid, .int 0, .octets val]), rest) := by
  rw [extension_5280]
  have hw : extensionLike.wf = true := by decide +kernel
  have hf : Ber.reads false Py.univ.Boolean.call.ty (.int 0) [0x01, 0x01, 0x00] :=
    ⟨⟨[0], Or.inl ⟨rfl, rfl⟩, _, ⟨[1], [1], .low (by decide), .short (by decide), rfl⟩, rfl⟩, by decide +kernel⟩
  refine ⟨ber_decode _ _ _ _ hw ⟨⟨[e1, e3], ⟨_, by simpa using hb, rfl⟩, ?_⟩, fun _ => rfl⟩,
    ber_decode _ _ _ _ hw ⟨⟨[e1, [0x01, 0x01, 0x00], e3], ⟨_, by simpa using hb', rfl⟩, ?_⟩, fun _ => rfl⟩⟩
  · exact Or.inl ⟨e1, [e3], rfl, h1, Or.inr ⟨Or.inl ⟨e3, [], rfl, h3, rfl⟩, rfl⟩⟩
  · exact Or.inl ⟨e1, _, rfl, h1, Or.inl ⟨_, [e3], rfl, hf, Or.inl ⟨e3, [], rfl, h3, rfl⟩⟩⟩

example : decode Rfc5280.Extension.call.ty [0x30, 11, 6, 3, 0x55, 0x1d, 0x0f, 1, 1, 0, 4, 0x81, 0] =
    some (.record (.ofList [.oid [2, 5, 29, 15], .int 0, .octets []]), []) := by decide +kernel

end Reading
end Props
end Verif
