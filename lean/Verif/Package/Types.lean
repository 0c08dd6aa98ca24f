import Verif.Gen.Package
import Verif.Asn1.Wf

/-!
# The types of the package, and which of them are well-formed

`types` lists every class of every `rfc*.py` module as `decode(..., asn1Spec=X())`
sees it.  The tables are evaluated by the kernel over the whole list.
-/

namespace Verif
namespace Package

open Asn1

/-- Every class the 130 modules define, instantiated.  (Re-exported names are the same classes.). -/
def types : List (String × Ty) :=
  modules.flatMap (fun m => m.classes.map (fun c => (c.1, c.2.call.ty)))

theorem mem_types {m : Py.Module} {c : String × Py.Obj} (hm : m ∈ modules) (hc : c ∈ m.classes) :
    (c.1, c.2.call.ty) ∈ types :=
  List.mem_flatMap.2 ⟨m, hm, List.mem_map.2 ⟨c, hc, rfl⟩⟩

/-- The classes whose DER codec is *not* reliable; see `Verif/Props/Defects.lean`
for a value of each that goes wrong. -/
def defective : List String :=
  ["rfc2251.UnbindRequest", "rfc2251.LDAPMessage", "rfc3739.SemanticsInformation",
   "rfc4108.FirmwarePackageInfo", "rfc6402.ChangeSubjectName", "rfc6402.CMCStatusInfoV2"]

/-- Exactly these classes are not well-formed. -/
theorem wf_table : (types.filter (fun c => !c.2.wf)).map Prod.fst = defective := by decide +kernel

/-- All classes re-encode what they decode. -/
theorem stable_table : types.all (fun c => c.2.stable) = true := by decide +kernel

theorem wf_of_mem {c : String × Ty} (h : c ∈ types) (hd : c.1 ∉ defective) : c.2.wf = true := by
  cases hw : c.2.wf with
  | true => rfl
  | false =>
    refine absurd ?_ hd
    rw [← wf_table]
    exact List.mem_map.2 ⟨c, List.mem_filter.2 ⟨h, by simp [hw]⟩, rfl⟩

theorem stable_of_mem {c : String × Ty} (h : c ∈ types) : c.2.stable = true :=
  List.all_eq_true.1 stable_table c h

end Package
end Verif
