import Verif.Gen.Package
import Verif.Std.Objects.Check.Rfc2315
import Verif.Std.Objects.Check.Rfc2459
import Verif.Std.Objects.Check.Rfc2634
import Verif.Std.Objects.Check.Rfc2876
import Verif.Std.Objects.Check.Rfc2985
import Verif.Std.Objects.Check.Rfc3058
import Verif.Std.Objects.Check.Rfc3114
import Verif.Std.Objects.Check.Rfc3161
import Verif.Std.Objects.Check.Rfc3274
import Verif.Std.Objects.Check.Rfc3279
import Verif.Std.Objects.Check.Rfc3370
import Verif.Std.Objects.Check.Rfc3537
import Verif.Std.Objects.Check.Rfc3565
import Verif.Std.Objects.Check.Rfc3657
import Verif.Std.Objects.Check.Rfc3709
import Verif.Std.Objects.Check.Rfc3739
import Verif.Std.Objects.Check.Rfc3770
import Verif.Std.Objects.Check.Rfc3779
import Verif.Std.Objects.Check.Rfc3820
import Verif.Std.Objects.Check.Rfc4010
import Verif.Std.Objects.Check.Rfc4043
import Verif.Std.Objects.Check.Rfc4055
import Verif.Std.Objects.Check.Rfc4073
import Verif.Std.Objects.Check.Rfc4108
import Verif.Std.Objects.Check.Rfc4334
import Verif.Std.Objects.Check.Rfc4357
import Verif.Std.Objects.Check.Rfc4476
import Verif.Std.Objects.Check.Rfc4490
import Verif.Std.Objects.Check.Rfc4683
import Verif.Std.Objects.Check.Rfc4985
import Verif.Std.Objects.Check.Rfc5035
import Verif.Std.Objects.Check.Rfc5083
import Verif.Std.Objects.Check.Rfc5084
import Verif.Std.Objects.Check.Rfc5126
import Verif.Std.Objects.Check.Rfc5275
import Verif.Std.Objects.Check.Rfc5280
import Verif.Std.Objects.Check.Rfc5480
import Verif.Std.Objects.Check.Rfc5636
import Verif.Std.Objects.Check.Rfc5652
import Verif.Std.Objects.Check.Rfc5697
import Verif.Std.Objects.Check.Rfc5751
import Verif.Std.Objects.Check.Rfc5752
import Verif.Std.Objects.Check.Rfc5753
import Verif.Std.Objects.Check.Rfc5755
import Verif.Std.Objects.Check.Rfc5913
import Verif.Std.Objects.Check.Rfc5914
import Verif.Std.Objects.Check.Rfc5916
import Verif.Std.Objects.Check.Rfc5917
import Verif.Std.Objects.Check.Rfc5934
import Verif.Std.Objects.Check.Rfc5940
import Verif.Std.Objects.Check.Rfc5958
import Verif.Std.Objects.Check.Rfc5990
import Verif.Std.Objects.Check.Rfc6010
import Verif.Std.Objects.Check.Rfc6019
import Verif.Std.Objects.Check.Rfc6031
import Verif.Std.Objects.Check.Rfc6032
import Verif.Std.Objects.Check.Rfc6120
import Verif.Std.Objects.Check.Rfc6210
import Verif.Std.Objects.Check.Rfc6211
import Verif.Std.Objects.Check.Rfc6402
import Verif.Std.Objects.Check.Rfc6482
import Verif.Std.Objects.Check.Rfc6486
import Verif.Std.Objects.Check.Rfc6664
import Verif.Std.Objects.Check.Rfc6955
import Verif.Std.Objects.Check.Rfc6960
import Verif.Std.Objects.Check.Rfc7030
import Verif.Std.Objects.Check.Rfc7191
import Verif.Std.Objects.Check.Rfc7292
import Verif.Std.Objects.Check.Rfc7508
import Verif.Std.Objects.Check.Rfc7585
import Verif.Std.Objects.Check.Rfc7633
import Verif.Std.Objects.Check.Rfc7773
import Verif.Std.Objects.Check.Rfc7894
import Verif.Std.Objects.Check.Rfc7906
import Verif.Std.Objects.Check.Rfc7914
import Verif.Std.Objects.Check.Rfc8017
import Verif.Std.Objects.Check.Rfc8018
import Verif.Std.Objects.Check.Rfc8103
import Verif.Std.Objects.Check.Rfc8226
import Verif.Std.Objects.Check.Rfc8358
import Verif.Std.Objects.Check.Rfc8360
import Verif.Std.Objects.Check.Rfc8398
import Verif.Std.Objects.Check.Rfc8418
import Verif.Std.Objects.Check.Rfc8419
import Verif.Std.Objects.Check.Rfc8479
import Verif.Std.Objects.Check.Rfc8520
import Verif.Std.Objects.Check.Rfc8649
import Verif.Std.Objects.Check.Rfc8696
import Verif.Std.Objects.Check.Rfc8702

/-! The objects of the standards (generated by tools/objgen.py). -/

namespace Verif
namespace Std

def registries : List Objects :=
  [Rfc2315.registered,
   Rfc2459.registered,
   Rfc2634.registered,
   Rfc2876.registered,
   Rfc2985.registered,
   Rfc3058.registered,
   Rfc3114.registered,
   Rfc3161.registered,
   Rfc3274.registered,
   Rfc3279.registered,
   Rfc3370.registered,
   Rfc3537.registered,
   Rfc3565.registered,
   Rfc3657.registered,
   Rfc3709.registered,
   Rfc3739.registered,
   Rfc3770.registered,
   Rfc3779.registered,
   Rfc3820.registered,
   Rfc4010.registered,
   Rfc4043.registered,
   Rfc4055.registered,
   Rfc4073.registered,
   Rfc4108.registered,
   Rfc4334.registered,
   Rfc4357.registered,
   Rfc4476.registered,
   Rfc4490.registered,
   Rfc4683.registered,
   Rfc4985.registered,
   Rfc5035.registered,
   Rfc5083.registered,
   Rfc5084.registered,
   Rfc5126.registered,
   Rfc5275.registered,
   Rfc5280.registered,
   Rfc5480.registered,
   Rfc5636.registered,
   Rfc5652.registered,
   Rfc5697.registered,
   Rfc5751.registered,
   Rfc5752.registered,
   Rfc5753.registered,
   Rfc5755.registered,
   Rfc5913.registered,
   Rfc5914.registered,
   Rfc5916.registered,
   Rfc5917.registered,
   Rfc5934.registered,
   Rfc5940.registered,
   Rfc5958.registered,
   Rfc5990.registered,
   Rfc6010.registered,
   Rfc6019.registered,
   Rfc6031.registered,
   Rfc6032.registered,
   Rfc6120.registered,
   Rfc6210.registered,
   Rfc6211.registered,
   Rfc6402.registered,
   Rfc6482.registered,
   Rfc6486.registered,
   Rfc6664.registered,
   Rfc6955.registered,
   Rfc6960.registered,
   Rfc7030.registered,
   Rfc7191.registered,
   Rfc7292.registered,
   Rfc7508.registered,
   Rfc7585.registered,
   Rfc7633.registered,
   Rfc7773.registered,
   Rfc7894.registered,
   Rfc7906.registered,
   Rfc7914.registered,
   Rfc8017.registered,
   Rfc8018.registered,
   Rfc8103.registered,
   Rfc8226.registered,
   Rfc8358.registered,
   Rfc8360.registered,
   Rfc8398.registered,
   Rfc8418.registered,
   Rfc8419.registered,
   Rfc8479.registered,
   Rfc8520.registered,
   Rfc8649.registered,
   Rfc8696.registered,
   Rfc8702.registered]

theorem registries_ok : ∀ s ∈ registries, s.ok = true := by
  simp only [registries, List.forall_mem_cons]
  exact ⟨Rfc2315.registered_ok, Rfc2459.registered_ok, Rfc2634.registered_ok, Rfc2876.registered_ok, Rfc2985.registered_ok, Rfc3058.registered_ok, Rfc3114.registered_ok, Rfc3161.registered_ok, Rfc3274.registered_ok, Rfc3279.registered_ok, Rfc3370.registered_ok, Rfc3537.registered_ok, Rfc3565.registered_ok, Rfc3657.registered_ok, Rfc3709.registered_ok, Rfc3739.registered_ok, Rfc3770.registered_ok, Rfc3779.registered_ok, Rfc3820.registered_ok, Rfc4010.registered_ok, Rfc4043.registered_ok, Rfc4055.registered_ok, Rfc4073.registered_ok, Rfc4108.registered_ok, Rfc4334.registered_ok, Rfc4357.registered_ok, Rfc4476.registered_ok, Rfc4490.registered_ok, Rfc4683.registered_ok, Rfc4985.registered_ok, Rfc5035.registered_ok, Rfc5083.registered_ok, Rfc5084.registered_ok, Rfc5126.registered_ok, Rfc5275.registered_ok, Rfc5280.registered_ok, Rfc5480.registered_ok, Rfc5636.registered_ok, Rfc5652.registered_ok, Rfc5697.registered_ok, Rfc5751.registered_ok, Rfc5752.registered_ok, Rfc5753.registered_ok, Rfc5755.registered_ok, Rfc5913.registered_ok, Rfc5914.registered_ok, Rfc5916.registered_ok, Rfc5917.registered_ok, Rfc5934.registered_ok, Rfc5940.registered_ok, Rfc5958.registered_ok, Rfc5990.registered_ok, Rfc6010.registered_ok, Rfc6019.registered_ok, Rfc6031.registered_ok, Rfc6032.registered_ok, Rfc6120.registered_ok, Rfc6210.registered_ok, Rfc6211.registered_ok, Rfc6402.registered_ok, Rfc6482.registered_ok, Rfc6486.registered_ok, Rfc6664.registered_ok, Rfc6955.registered_ok, Rfc6960.registered_ok, Rfc7030.registered_ok, Rfc7191.registered_ok, Rfc7292.registered_ok, Rfc7508.registered_ok, Rfc7585.registered_ok, Rfc7633.registered_ok, Rfc7773.registered_ok, Rfc7894.registered_ok, Rfc7906.registered_ok, Rfc7914.registered_ok, Rfc8017.registered_ok, Rfc8018.registered_ok, Rfc8103.registered_ok, Rfc8226.registered_ok, Rfc8358.registered_ok, Rfc8360.registered_ok, Rfc8398.registered_ok, Rfc8418.registered_ok, Rfc8419.registered_ok, Rfc8479.registered_ok, Rfc8520.registered_ok, Rfc8649.registered_ok, Rfc8696.registered_ok, Rfc8702.registered_ok, nofun⟩

theorem registries_modules : ∀ s ∈ registries, s.module ∈ Package.modules := by
  simp only [registries, List.forall_mem_cons]
  exact ⟨List.mem_of_getElem? (i := 7) rfl,
    List.mem_of_getElem? (i := 9) rfl,
    List.mem_of_getElem? (i := 13) rfl,
    List.mem_of_getElem? (i := 14) rfl,
    List.mem_of_getElem? (i := 15) rfl,
    List.mem_of_getElem? (i := 17) rfl,
    List.mem_of_getElem? (i := 18) rfl,
    List.mem_of_getElem? (i := 20) rfl,
    List.mem_of_getElem? (i := 21) rfl,
    List.mem_of_getElem? (i := 22) rfl,
    List.mem_of_getElem? (i := 25) rfl,
    List.mem_of_getElem? (i := 29) rfl,
    List.mem_of_getElem? (i := 31) rfl,
    List.mem_of_getElem? (i := 32) rfl,
    List.mem_of_getElem? (i := 33) rfl,
    List.mem_of_getElem? (i := 34) rfl,
    List.mem_of_getElem? (i := 35) rfl,
    List.mem_of_getElem? (i := 36) rfl,
    List.mem_of_getElem? (i := 37) rfl,
    List.mem_of_getElem? (i := 39) rfl,
    List.mem_of_getElem? (i := 40) rfl,
    List.mem_of_getElem? (i := 41) rfl,
    List.mem_of_getElem? (i := 42) rfl,
    List.mem_of_getElem? (i := 43) rfl,
    List.mem_of_getElem? (i := 46) rfl,
    List.mem_of_getElem? (i := 47) rfl,
    List.mem_of_getElem? (i := 49) rfl,
    List.mem_of_getElem? (i := 50) rfl,
    List.mem_of_getElem? (i := 52) rfl,
    List.mem_of_getElem? (i := 53) rfl,
    List.mem_of_getElem? (i := 54) rfl,
    List.mem_of_getElem? (i := 55) rfl,
    List.mem_of_getElem? (i := 56) rfl,
    List.mem_of_getElem? (i := 57) rfl,
    List.mem_of_getElem? (i := 59) rfl,
    List.mem_of_getElem? (i := 60) rfl,
    List.mem_of_getElem? (i := 61) rfl,
    List.mem_of_getElem? (i := 62) rfl,
    List.mem_of_getElem? (i := 65) rfl,
    List.mem_of_getElem? (i := 66) rfl,
    List.mem_of_getElem? (i := 67) rfl,
    List.mem_of_getElem? (i := 68) rfl,
    List.mem_of_getElem? (i := 69) rfl,
    List.mem_of_getElem? (i := 70) rfl,
    List.mem_of_getElem? (i := 71) rfl,
    List.mem_of_getElem? (i := 72) rfl,
    List.mem_of_getElem? (i := 74) rfl,
    List.mem_of_getElem? (i := 75) rfl,
    List.mem_of_getElem? (i := 77) rfl,
    List.mem_of_getElem? (i := 78) rfl,
    List.mem_of_getElem? (i := 79) rfl,
    List.mem_of_getElem? (i := 80) rfl,
    List.mem_of_getElem? (i := 81) rfl,
    List.mem_of_getElem? (i := 82) rfl,
    List.mem_of_getElem? (i := 83) rfl,
    List.mem_of_getElem? (i := 84) rfl,
    List.mem_of_getElem? (i := 85) rfl,
    List.mem_of_getElem? (i := 88) rfl,
    List.mem_of_getElem? (i := 89) rfl,
    List.mem_of_getElem? (i := 90) rfl,
    List.mem_of_getElem? (i := 91) rfl,
    List.mem_of_getElem? (i := 92) rfl,
    List.mem_of_getElem? (i := 94) rfl,
    List.mem_of_getElem? (i := 95) rfl,
    List.mem_of_getElem? (i := 96) rfl,
    List.mem_of_getElem? (i := 97) rfl,
    List.mem_of_getElem? (i := 98) rfl,
    List.mem_of_getElem? (i := 100) rfl,
    List.mem_of_getElem? (i := 102) rfl,
    List.mem_of_getElem? (i := 103) rfl,
    List.mem_of_getElem? (i := 104) rfl,
    List.mem_of_getElem? (i := 105) rfl,
    List.mem_of_getElem? (i := 106) rfl,
    List.mem_of_getElem? (i := 107) rfl,
    List.mem_of_getElem? (i := 108) rfl,
    List.mem_of_getElem? (i := 109) rfl,
    List.mem_of_getElem? (i := 110) rfl,
    List.mem_of_getElem? (i := 111) rfl,
    List.mem_of_getElem? (i := 113) rfl,
    List.mem_of_getElem? (i := 114) rfl,
    List.mem_of_getElem? (i := 115) rfl,
    List.mem_of_getElem? (i := 116) rfl,
    List.mem_of_getElem? (i := 118) rfl,
    List.mem_of_getElem? (i := 119) rfl,
    List.mem_of_getElem? (i := 120) rfl,
    List.mem_of_getElem? (i := 122) rfl,
    List.mem_of_getElem? (i := 124) rfl,
    List.mem_of_getElem? (i := 126) rfl,
    List.mem_of_getElem? (i := 127) rfl, nofun⟩

end Std
end Verif
