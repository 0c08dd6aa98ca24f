import Verif.Built.Checks
import Verif.Gen.Package
import Verif.Asn1.Relax
import Verif.Asn1.Grade

/-!
# C54: every class is the ASN.1 type written down for it

`Built.descriptions` sets every class of the package beside an ASN.1 type: that of the standard where the class
is just that, and otherwise the standard's with the definitions of tools/std/built put in place of its own
(translated by tools/builtgen.py).
-/

set_option maxRecDepth 100000

namespace Verif
namespace Props
namespace Built

open Asn1 Verif.Built

/-- C54: all modules are there. -/
theorem modules_described : descriptions.map (·.module) = Package.modules := rfl

/-- C54: all classes of each module are there, in order and by their names. -/
theorem classes_described (d : Description) (hd : d ∈ descriptions) :
    d.rows.map (fun r => (r.name, r.obj)) = d.module.classes :=
  (checked d hd).covers

/-- C54: a class has exactly the legal values of the type that describes it, writes each value and reads any octets
whatever as that type does, and its components and numbers have the names given there. -/
theorem described_exactly (d : Description) (hd : d ∈ descriptions) (r : Described) (hr : r ∈ d.rows) :
    r.obj.call.ty.sameNames r.ty = true ∧
    (∀ v, r.obj.call.ty.valid v = r.ty.valid v) ∧ (∀ v, encode r.obj.call.ty v = encode r.ty v) ∧
      ∀ b, decode r.obj.call.ty b = decode r.ty b := by
  have h := List.all_eq_true.1 (checked d hd).exact r hr
  simp only [Described.exact, Bool.and_eq_true] at h
  exact ⟨h.2, agrees_valid h.1, agrees_encode h.1, agrees_decode h.1⟩

/-- C54: so every class of the package has such a type. -/
theorem every_class (m : Py.Module) (hm : m ∈ Package.modules) (c : String × Py.Obj) (hc : c ∈ m.classes) :
    ∃ d ∈ descriptions, d.module = m ∧ ∃ r ∈ d.rows, r.name = c.1 ∧ r.obj = c.2 ∧
      c.2.call.ty.sameNames r.ty = true ∧
      (∀ v, c.2.call.ty.valid v = r.ty.valid v) ∧ (∀ v, encode c.2.call.ty v = encode r.ty v) ∧
        ∀ b, decode c.2.call.ty b = decode r.ty b := by
  rw [← modules_described] at hm
  obtain ⟨d, hd, rfl⟩ := List.mem_map.1 hm
  rw [← classes_described d hd] at hc
  obtain ⟨r, hr, rfl⟩ := List.mem_map.1 hc
  exact ⟨d, hd, rfl, r, hr, rfl, rfl, described_exactly d hd r hr⟩

/-- The signerInfos of PKCS #7 are mandatory; the class lets them be absent, as its description says. -/
example : let b : Bytes := [0x30, 0x12, 2, 1, 1, 0x31, 0, 0x30, 11, 6, 9, 0x2a, 0x86, 0x48, 0x86, 0xf7, 13, 1, 7, 1]
    decode Std.Rfc2315.SignedData b = none ∧ (decode Verif.Built.Rfc2315.SignedData b).isSome = true ∧
    decode Rfc2315.SignedData.call.ty b = decode Verif.Built.Rfc2315.SignedData b := by decide +kernel

end Built
end Props
end Verif
