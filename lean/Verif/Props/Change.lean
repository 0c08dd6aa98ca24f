import Verif.Asn1.Change
import Verif.Props.Der

/-!
# Changing one place in a message

C70: a message is decoded, something in it is changed, added or removed, and it is encoded again.
-/

namespace Verif
namespace Props
namespace Change

open Asn1 Der Verif.Change

/-- The octets of a place: the encoding of what is there, none if nothing is there. -/
def Stands (s : Ty) : Option Val → Bytes → Prop
  | none, e => e = []
  | some w, e => encode s w = some e

/-- **C70.** Two legal values that differ in one place, at whatever depth: their encodings differ in the octets of that
place and in the lengths of what is around it, and in nothing else.  The octets of the place are those which what is
there is encoded to by itself. -/
theorem edit (c : String × Ty) (hc : c ∈ Package.types) (hd : c.1 ∉ Package.defective) (moved : Bool) (v v' : Val)
    (hv : c.2.valid v = true) (hk : c.2.kept false v = true) (hv' : c.2.valid v' = true) (hk' : c.2.kept false v' = true)
    (s : Ty) (o o' : Option Val) (h : Differ moved c.2 v v' s o o') (b b' : Bytes)
    (hb : encode c.2 v = some b) (hb' : encode c.2 v' = some b') :
    ∃ e e', Stands s o e ∧ Stands s o' e' ∧ Changed moved e e' b b' := by
  have hw := Package.wf_of_mem hc hd
  obtain ⟨j, e, e', w, w', hch, g, g'⟩ := changed_enc h false b b' hb hb'
  refine ⟨e, e', ?_, ?_, hch⟩
  · cases o with
    | none => exact w
    | some x => exact (g x rfl ⟨hw, hv, hk, by simp⟩).encode.symm.trans w
  · cases o' with
    | none => exact w'
    | some x => exact (g' x rfl ⟨hw, hv', hk', by simp⟩).encode.symm.trans w'

/-- **C70.** If the place has a simple type this holds for all types and all values, with or without empty collections. -/
theorem edit_simple (t : Ty) (moved : Bool) (v v' : Val) (k : Prim) (a : Attrs) (o o' : Option Val)
    (h : Differ moved t v v' (.prim k a) o o') (b b' : Bytes) (hb : encode t v = some b) (hb' : encode t v' = some b') :
    ∃ e e', Stands (.prim k a) o e ∧ Stands (.prim k a) o' e' ∧ Changed moved e e' b b' := by
  obtain ⟨j, e, e', w, w', hch, _, _⟩ := changed_enc h false b b' hb hb'
  refine ⟨e, e', ?_, ?_, hch⟩
  · cases o with
    | none => exact w
    | some x => simpa [Stands, Wrote, encode, enc] using w
  · cases o' with
    | none => exact w'
    | some x => simpa [Stands, Wrote, encode, enc] using w'

/-- **C70.** DER that was made elsewhere is decoded, one place in it is changed, and it is encoded again: the octets sent
are those received, but for the octets of that place and the lengths around it. -/
theorem edit_received (c : String × Ty) (hc : c ∈ Package.types) (hd : c.1 ∉ Package.defective)
    (ha : c.1 ∉ Encoding.primitiveAny) (v : Val) (b : Bytes) (hv : c.2.valid v = true) (hk : care c.2 v)
    (hn : c.2.kept false v = true) (he : encodes c.2 v b) :
    ∃ w, decode c.2 b = some (w, []) ∧ ∀ (moved : Bool) (w' : Val) (k : Prim) (a : Attrs) (o o' : Option Val) (b' : Bytes),
      Differ moved c.2 w w' (.prim k a) o o' → encode c.2 w' = some b' →
      ∃ e e', Stands (.prim k a) o e ∧ Stands (.prim k a) o' e' ∧ Changed moved e e' b b' := by
  obtain ⟨w, h1, h2⟩ := Encoding.der_rewritten c hc hd ha v b hv hk hn he
  exact ⟨w, h1, fun moved w' k a o o' b' hdf hb' => edit_simple c.2 moved w w' k a o o' hdf b b' h2 hb'⟩

/-! ## What this says about the octets -/

/-- **C70.** Outside SETs: what comes after the place is the same octets as before. -/
theorem edit_after {e e' b b' : Bytes} (h : Changed false e e' b b') : ∃ p p' q, b = p ++ e ++ q ∧ b' = p' ++ e' ++ q := by
  induction h with
  | here => exact ⟨[], [], [], by simp, by simp⟩
  | between c c' ps qs ps' qs' _ h1 h2 ih =>
    obtain ⟨p, p', q, rfl, rfl⟩ := ih
    have := h2 rfl
    subst this
    have hq : qs = qs' := List.append_cancel_left h1
    subst hq
    exact ⟨ps.flatten ++ p, ps.flatten ++ p', q ++ qs.flatten, by simp, by simp⟩
  | within c c' cl k n i l l' _ _ _ _ ih =>
    obtain ⟨p, p', q, rfl, rfl⟩ := ih
    exact ⟨i ++ l ++ p, i ++ l' ++ p', q, by simp, by simp⟩
  | fill c' cl k n i l' _ _ _ _ ih =>
    obtain ⟨p, p', q, h1, rfl⟩ := ih
    exact ⟨p, i ++ l' ++ p', q, h1, by simp⟩
  | drain c cl k n i l _ _ _ _ ih =>
    obtain ⟨p, p', q, rfl, h1⟩ := ih
    exact ⟨i ++ l ++ p, p', q, by simp, h1⟩

/-- The length only depends on the length of the place. -/
theorem edit_length {moved : Bool} {e e' b b' : Bytes} (h : Changed moved e e' b b') (hl : e.length = e'.length) :
    b.length = b'.length := by
  induction h with
  | here => exact hl
  | between c c' ps qs ps' qs' _ h1 _ ih =>
    have := congrArg (fun l => l.flatten.length) h1
    simp only [List.flatten_append, List.length_append] at this
    simp only [List.flatten_append, List.flatten_cons, List.length_append, ih]
    omega
  | within c c' cl k n i l l' _ _ h1 h2 ih =>
    rw [length_iff] at h1 h2
    rw [ih, h2] at h1
    cases h1
    simp [ih]
  | fill c' cl k n i l' _ h1 _ _ ih =>
    exact absurd (List.eq_nil_of_length_eq_zero ih.symm) h1
  | drain c cl k n i l _ h1 _ _ ih =>
    exact absurd (List.eq_nil_of_length_eq_zero ih) h1

/-- **C70.** Outside SETs: if what is put there takes as many octets as what was there, not a single other octet changes. -/
theorem edit_in_place {e e' b b' : Bytes} (h : Changed false e e' b b') (hl : e.length = e'.length) :
    ∃ p q, b = p ++ e ++ q ∧ b' = p ++ e' ++ q := by
  induction h with
  | here => exact ⟨[], [], by simp, by simp⟩
  | between c c' ps qs ps' qs' _ h1 h2 ih =>
    obtain ⟨p, q, rfl, rfl⟩ := ih
    have := h2 rfl
    subst this
    have hq : qs = qs' := List.append_cancel_left h1
    subst hq
    exact ⟨ps.flatten ++ p, q ++ qs.flatten, by simp, by simp⟩
  | within c c' cl k n i l l' hc _ h1 h2 ih =>
    rw [length_iff] at h1 h2
    rw [edit_length hc hl, h2] at h1
    cases h1
    obtain ⟨p, q, rfl, rfl⟩ := ih
    exact ⟨i ++ l ++ p, q, by simp, by simp⟩
  | fill c' cl k n i l' hc h1 _ _ ih =>
    exact absurd (List.eq_nil_of_length_eq_zero (edit_length hc hl).symm) h1
  | drain c cl k n i l hc h1 _ _ ih =>
    exact absurd (List.eq_nil_of_length_eq_zero (edit_length hc hl)) h1

/-! ## A case -/

namespace Examples

open Encoding.Examples

/-- The same period, ten years longer. -/
def longer : Val := .record (.ofList [
  .alt 0 (.str "261116000000Z".toList), .alt 1 (.str "20371116000000Z".toList)])

/-- An `Extension` that is not critical, and one that is. -/
def extension (critical : Int) : Val := .record (.ofList [.oid [2, 5, 29, 19], .int critical, .octets [0x30, 0]])

theorem validity_ty : Rfc5280.Validity.call.ty = .seq false ⟨[⟨.universal, true, 16⟩], .inter .nil, []⟩
    (.cons ⟨"notBefore", .req, none⟩ Rfc5280.Time.call.ty (.cons ⟨"notAfter", .req, none⟩ Rfc5280.Time.call.ty .nil)) := by
  decide +kernel

theorem time_ty : Rfc5280.Time.call.ty = .choice ⟨[], .inter .nil, []⟩
    (.cons ⟨"utcTime", .req, none⟩ (.prim .utcTime ⟨[⟨.universal, false, 23⟩], .inter .nil, []⟩)
    (.cons ⟨"generalTime", .req, none⟩ (.prim .generalizedTime ⟨[⟨.universal, false, 24⟩], .inter .nil, []⟩) .nil)) := by
  decide +kernel

/-- Two steps down: the time inside the CHOICE inside the second component. -/
theorem validity_differ : Differ false Rfc5280.Validity.call.ty validity longer
    (.prim .generalizedTime ⟨[⟨.universal, false, 24⟩], .inter .nil, []⟩)
    (some (.str "20271116000000Z".toList)) (some (.str "20371116000000Z".toList)) := by
  rw [validity_ty]
  refine Differ.inField false _ _ _ _ [_] [] ⟨"notAfter", .req, none⟩ Rfc5280.Time.call.ty [_] [] _ _ _ _ _ (by simp) rfl rfl rfl rfl rfl rfl ?_
  rw [time_ty]
  exact Differ.inAlternative _ _ [_] [] ⟨"generalTime", .req, none⟩ _ _ _ _ _ _ rfl (.here _ _ _)

-- the hypotheses of `edit`
example : Rfc5280.Validity.call.ty.valid longer = true ∧ Rfc5280.Validity.call.ty.kept false longer = true ∧
    (encode Rfc5280.Validity.call.ty longer).isSome = true := by decide +kernel

theorem extension_ty : Rfc5280.Extension.call.ty = .seq false ⟨[⟨.universal, true, 16⟩], .inter .nil, []⟩
    (.cons ⟨"extnID", .req, none⟩ (.prim .oid ⟨[⟨.universal, false, 6⟩], .inter .nil, []⟩)
    (.cons ⟨"critical", .dflt (.int 0), none⟩ (.prim .boolean ⟨[⟨.universal, false, 1⟩], .inter (.cons (.single [.int 0, .int 1]) .nil), [("False", 0), ("True", 1)]⟩)
    (.cons ⟨"extnValue", .req, none⟩ (.prim .octetString ⟨[⟨.universal, false, 4⟩], .inter .nil, []⟩) .nil))) := by
  decide +kernel

/-- A component that comes in: nothing was written there before. -/
theorem extension_differ : Differ false Rfc5280.Extension.call.ty (extension 0) (extension 1)
    (.prim .boolean ⟨[⟨.universal, false, 1⟩], .inter (.cons (.single [.int 0, .int 1]) .nil), [("False", 0), ("True", 1)]⟩) none (some (.int 1)) := by
  rw [extension_ty]
  exact Differ.field false _ _ _ _ [_] [_] ⟨"critical", .dflt (.int 0), none⟩ _ [_] [_] (.int 0) (.int 1) (by simp) rfl rfl rfl rfl

example : encode Rfc5280.Extension.call.ty (extension 0) = some [0x30, 9, 6, 3, 0x55, 0x1d, 19, 4, 2, 0x30, 0] ∧
    encode Rfc5280.Extension.call.ty (extension 1) = some [0x30, 12, 6, 3, 0x55, 0x1d, 19, 1, 1, 0xff, 4, 2, 0x30, 0] := by
  decide +kernel

/-- In a SET OF the elements may be rearranged: this is what `moved` is for. -/
example : encode (.of true ⟨[⟨.universal, true, 17⟩], .inter .nil, []⟩ (.prim .integer ⟨[⟨.universal, false, 2⟩], .inter .nil, []⟩))
      (.list (.ofList [.int 1, .int 5])) = some [0x31, 6, 2, 1, 1, 2, 1, 5] ∧
    encode (.of true ⟨[⟨.universal, true, 17⟩], .inter .nil, []⟩ (.prim .integer ⟨[⟨.universal, false, 2⟩], .inter .nil, []⟩))
      (.list (.ofList [.int 9, .int 5])) = some [0x31, 6, 2, 1, 5, 2, 1, 9] := by decide +kernel

end Examples

end Change
end Props
end Verif
