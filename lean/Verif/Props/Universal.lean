import Verif.Props.Tagging
import Verif.Package.Types

/-!
# Universal tags

C47: a type that is not tagged is encoded under the tag X.680 assigns to it.
-/

namespace Verif
namespace Spec

open Asn1

/-- X.680, table 1: the universal class tags of the types.  Types written in ASCII are NumericString,
PrintableString, IA5String and VisibleString. -/
def universal : Ty → List Nat
  | .prim .boolean _ => [1]
  | .prim .integer _ => [2]
  | .prim .bitString _ => [3]
  | .prim .octetString _ => [4]
  | .prim .null _ => [5]
  | .prim .oid _ => [6]
  | .prim .enumerated _ => [10]
  | .prim (.str .utf8) _ => [12]
  | .seq false _ _ => [16]
  | .of false _ _ => [16]
  | .seq true _ _ => [17]
  | .of true _ _ => [17]
  | .prim (.str .ascii) _ => [18, 19, 22, 26]
  | .prim (.str .latin1) _ => [20]
  | .prim .utcTime _ => [23]
  | .prim .generalizedTime _ => [24]
  | .prim (.str .utf32be) _ => [28]
  | .prim (.str .utf16be) _ => [30]
  | .prim .any _ => []
  | .choice _ _ => []
  | .bad _ => []

/-- The bit for a constructed encoding. -/
def formBit : Ty → Nat
  | .prim _ _ => 0
  | _ => 32

end Spec

namespace Props
namespace Universal

open Verif.Asn1 Verif.Spec

/-- Only the innermost tag is universal, and it is the one of the type. -/
def ok (t : Ty) : Bool :=
  match t.tags with
  | [] => (universal t).isEmpty
  | x :: xs => (x.cls != .universal || ((universal t).contains x.num && x.constructed == (formBit t == 32))) &&
      xs.all (fun y => y.cls != .universal)

/-- C47: every type the package defines, and every type inside one. -/
theorem table : Package.types.all (fun c => c.2.each ok) = true := by decide +kernel

theorem of_mem {c : String × Ty} (hc : c ∈ Package.types) {u : Ty} (hu : u ∈ c.2.nodes) : ok u = true := by
  have := List.all_eq_true.1 table c hc
  rw [Ty.each_nodes, List.all_eq_true] at this
  exact this u hu

/-- C47: untagged, its encodings start with the octet of X.690, 8.1.2, for every value. -/
theorem first_octet (c : String × Ty) (hc : c ∈ Package.types) (u : Ty) (hu : u ∈ c.2.nodes) (x : Tag)
    (hx : u.tags = [x]) (hcls : x.cls = .universal) (v : Val) (b : Bytes) (he : encode u v = some b) :
    ∃ n ∈ universal u, ∃ r, b = UInt8.ofNat (formBit u + n) :: r := by
  have ho := of_mem hc hu
  simp only [ok, hx, hcls, List.all_nil, Bool.and_true, bne_self_eq_false, Bool.false_or, Bool.and_eq_true, beq_iff_eq,
    List.contains_iff_mem] at ho
  rw [Tagging.encode_inner, hx] at he
  simp only [Option.bind_eq_some_iff, wrap, Option.bind_eq_some_iff] at he
  obtain ⟨i, _, w, h1, h2⟩ := he
  simp only [Option.some.injEq] at h2
  subst h2
  simp only [tlv, Option.map_eq_some_iff] at h1
  obtain ⟨l, _, rfl⟩ := h1
  have hn : ∀ (t : Ty), ∀ n ∈ universal t, n < 31 := by
    intro t n hn
    unfold universal at hn
    split at hn <;> simp at hn <;> omega
  refine ⟨x.num, ho.1, l ++ i, ?_⟩
  have hf : (x.constructed || Tagging.forced u) = (formBit u == 32) := by
    cases u <;> simp_all [Tagging.forced, formBit]
  rw [encTag, if_pos (hn u _ ho.1), hf, hcls]
  cases u <;> simp [formBit, Cls.bits]

/-- C47: every type that is neither ANY nor a CHOICE has a tag. -/
theorem tagged (c : String × Ty) (hc : c ∈ Package.types) (u : Ty) (hu : u ∈ c.2.nodes) (hn : universal u ≠ []) :
    u.tags ≠ [] := by
  intro h
  have := of_mem hc hu
  simp only [ok, h, List.isEmpty_iff] at this
  exact hn this

/-- C47: the types the modules are built from, with the numbers of X.680. -/
theorem base_tags :
    [Py.univ.Boolean, Py.univ.Integer, Py.univ.BitString, Py.univ.OctetString, Py.univ.Null, Py.univ.ObjectIdentifier,
     Py.univ.Enumerated, Py.char.UTF8String, Py.univ.Sequence, Py.univ.SequenceOf, Py.univ.Set, Py.univ.SetOf,
     Py.char.NumericString, Py.char.PrintableString, Py.char.TeletexString, Py.char.IA5String, Py.useful.UTCTime,
     Py.useful.GeneralizedTime, Py.char.VisibleString, Py.char.UniversalString, Py.char.BMPString].map
      (fun o => o.ty.tags.map (fun t => (t.cls, t.num))) =
    [1, 2, 3, 4, 5, 6, 10, 12, 16, 16, 17, 17, 18, 19, 20, 22, 23, 24, 26, 28, 30].map (fun n => [(Cls.universal, n)]) := by
  decide +kernel

-- C47: Validity is a SEQUENCE, one of the classes
example : ("rfc5280.Validity", Rfc5280.Validity.call.ty) ∈ Package.types ∧
    Rfc5280.Validity.call.ty.tags = [⟨.universal, true, 16⟩] :=
  ⟨Package.mem_types (m := Rfc5280.asModule) (c := ("rfc5280.Validity", Rfc5280.Validity)) (by simp [Package.modules])
    (by simp [Rfc5280.asModule, Rfc5280.classes]), rfl⟩

end Universal
end Props
end Verif
