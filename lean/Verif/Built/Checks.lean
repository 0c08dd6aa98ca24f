import Verif.Built.Table
import Verif.Built.Check.Rfc1155
import Verif.Built.Check.Rfc1157
import Verif.Built.Check.Rfc1901
import Verif.Built.Check.Rfc1902
import Verif.Built.Check.Rfc1905
import Verif.Built.Check.Rfc2251
import Verif.Built.Check.Rfc2314
import Verif.Built.Check.Rfc2315
import Verif.Built.Check.Rfc2437
import Verif.Built.Check.Rfc2459
import Verif.Built.Check.Rfc2511
import Verif.Built.Check.Rfc2560
import Verif.Built.Check.Rfc2631
import Verif.Built.Check.Rfc2634
import Verif.Built.Check.Rfc2876
import Verif.Built.Check.Rfc2985
import Verif.Built.Check.Rfc2986
import Verif.Built.Check.Rfc3058
import Verif.Built.Check.Rfc3114
import Verif.Built.Check.Rfc3125
import Verif.Built.Check.Rfc3161
import Verif.Built.Check.Rfc3274
import Verif.Built.Check.Rfc3279
import Verif.Built.Check.Rfc3280
import Verif.Built.Check.Rfc3281
import Verif.Built.Check.Rfc3370
import Verif.Built.Check.Rfc3412
import Verif.Built.Check.Rfc3414
import Verif.Built.Check.Rfc3447
import Verif.Built.Check.Rfc3537
import Verif.Built.Check.Rfc3560
import Verif.Built.Check.Rfc3565
import Verif.Built.Check.Rfc3657
import Verif.Built.Check.Rfc3709
import Verif.Built.Check.Rfc3739
import Verif.Built.Check.Rfc3770
import Verif.Built.Check.Rfc3779
import Verif.Built.Check.Rfc3820
import Verif.Built.Check.Rfc3852
import Verif.Built.Check.Rfc4010
import Verif.Built.Check.Rfc4043
import Verif.Built.Check.Rfc4055
import Verif.Built.Check.Rfc4073
import Verif.Built.Check.Rfc4108
import Verif.Built.Check.Rfc4210
import Verif.Built.Check.Rfc4211
import Verif.Built.Check.Rfc4334
import Verif.Built.Check.Rfc4357
import Verif.Built.Check.Rfc4387
import Verif.Built.Check.Rfc4476
import Verif.Built.Check.Rfc4490
import Verif.Built.Check.Rfc4491
import Verif.Built.Check.Rfc4683
import Verif.Built.Check.Rfc4985
import Verif.Built.Check.Rfc5035
import Verif.Built.Check.Rfc5083
import Verif.Built.Check.Rfc5084
import Verif.Built.Check.Rfc5126
import Verif.Built.Check.Rfc5208
import Verif.Built.Check.Rfc5275
import Verif.Built.Check.Rfc5280
import Verif.Built.Check.Rfc5480
import Verif.Built.Check.Rfc5636
import Verif.Built.Check.Rfc5639
import Verif.Built.Check.Rfc5649
import Verif.Built.Check.Rfc5652
import Verif.Built.Check.Rfc5697
import Verif.Built.Check.Rfc5751
import Verif.Built.Check.Rfc5752
import Verif.Built.Check.Rfc5753
import Verif.Built.Check.Rfc5755
import Verif.Built.Check.Rfc5913
import Verif.Built.Check.Rfc5914
import Verif.Built.Check.Rfc5915
import Verif.Built.Check.Rfc5916
import Verif.Built.Check.Rfc5917
import Verif.Built.Check.Rfc5924
import Verif.Built.Check.Rfc5934
import Verif.Built.Check.Rfc5940
import Verif.Built.Check.Rfc5958
import Verif.Built.Check.Rfc5990
import Verif.Built.Check.Rfc6010
import Verif.Built.Check.Rfc6019
import Verif.Built.Check.Rfc6031
import Verif.Built.Check.Rfc6032
import Verif.Built.Check.Rfc6120
import Verif.Built.Check.Rfc6170
import Verif.Built.Check.Rfc6187
import Verif.Built.Check.Rfc6210
import Verif.Built.Check.Rfc6211
import Verif.Built.Check.Rfc6402
import Verif.Built.Check.Rfc6482
import Verif.Built.Check.Rfc6486
import Verif.Built.Check.Rfc6487
import Verif.Built.Check.Rfc6664
import Verif.Built.Check.Rfc6955
import Verif.Built.Check.Rfc6960
import Verif.Built.Check.Rfc7030
import Verif.Built.Check.Rfc7191
import Verif.Built.Check.Rfc7229
import Verif.Built.Check.Rfc7292
import Verif.Built.Check.Rfc7296
import Verif.Built.Check.Rfc7508
import Verif.Built.Check.Rfc7585
import Verif.Built.Check.Rfc7633
import Verif.Built.Check.Rfc7773
import Verif.Built.Check.Rfc7894
import Verif.Built.Check.Rfc7906
import Verif.Built.Check.Rfc7914
import Verif.Built.Check.Rfc8017
import Verif.Built.Check.Rfc8018
import Verif.Built.Check.Rfc8103
import Verif.Built.Check.Rfc8209
import Verif.Built.Check.Rfc8226
import Verif.Built.Check.Rfc8358
import Verif.Built.Check.Rfc8360
import Verif.Built.Check.Rfc8398
import Verif.Built.Check.Rfc8410
import Verif.Built.Check.Rfc8418
import Verif.Built.Check.Rfc8419
import Verif.Built.Check.Rfc8479
import Verif.Built.Check.Rfc8494
import Verif.Built.Check.Rfc8520
import Verif.Built.Check.Rfc8619
import Verif.Built.Check.Rfc8649
import Verif.Built.Check.Rfc8692
import Verif.Built.Check.Rfc8696
import Verif.Built.Check.Rfc8702
import Verif.Built.Check.Rfc8708
import Verif.Built.Check.Rfc8769

/-! Every class is described (generated by tools/builtgen.py). -/

set_option maxRecDepth 100000

namespace Verif
namespace Built

theorem checked : ∀ d ∈ descriptions, d.Ok := by
  simp only [descriptions, List.forall_mem_cons]
  exact ⟨Rfc1155.checked, Rfc1157.checked, Rfc1901.checked, Rfc1902.checked, Rfc1905.checked, Rfc2251.checked, Rfc2314.checked, Rfc2315.checked, Rfc2437.checked, Rfc2459.checked, Rfc2511.checked, Rfc2560.checked, Rfc2631.checked, Rfc2634.checked, Rfc2876.checked, Rfc2985.checked, Rfc2986.checked, Rfc3058.checked, Rfc3114.checked, Rfc3125.checked, Rfc3161.checked, Rfc3274.checked, Rfc3279.checked, Rfc3280.checked, Rfc3281.checked, Rfc3370.checked, Rfc3412.checked, Rfc3414.checked, Rfc3447.checked, Rfc3537.checked, Rfc3560.checked, Rfc3565.checked, Rfc3657.checked, Rfc3709.checked, Rfc3739.checked, Rfc3770.checked, Rfc3779.checked, Rfc3820.checked, Rfc3852.checked, Rfc4010.checked, Rfc4043.checked, Rfc4055.checked, Rfc4073.checked, Rfc4108.checked, Rfc4210.checked, Rfc4211.checked, Rfc4334.checked, Rfc4357.checked, Rfc4387.checked, Rfc4476.checked, Rfc4490.checked, Rfc4491.checked, Rfc4683.checked, Rfc4985.checked, Rfc5035.checked, Rfc5083.checked, Rfc5084.checked, Rfc5126.checked, Rfc5208.checked, Rfc5275.checked, Rfc5280.checked, Rfc5480.checked, Rfc5636.checked, Rfc5639.checked, Rfc5649.checked, Rfc5652.checked, Rfc5697.checked, Rfc5751.checked, Rfc5752.checked, Rfc5753.checked, Rfc5755.checked, Rfc5913.checked, Rfc5914.checked, Rfc5915.checked, Rfc5916.checked, Rfc5917.checked, Rfc5924.checked, Rfc5934.checked, Rfc5940.checked, Rfc5958.checked, Rfc5990.checked, Rfc6010.checked, Rfc6019.checked, Rfc6031.checked, Rfc6032.checked, Rfc6120.checked, Rfc6170.checked, Rfc6187.checked, Rfc6210.checked, Rfc6211.checked, Rfc6402.checked, Rfc6482.checked, Rfc6486.checked, Rfc6487.checked, Rfc6664.checked, Rfc6955.checked, Rfc6960.checked, Rfc7030.checked, Rfc7191.checked, Rfc7229.checked, Rfc7292.checked, Rfc7296.checked, Rfc7508.checked, Rfc7585.checked, Rfc7633.checked, Rfc7773.checked, Rfc7894.checked, Rfc7906.checked, Rfc7914.checked, Rfc8017.checked, Rfc8018.checked, Rfc8103.checked, Rfc8209.checked, Rfc8226.checked, Rfc8358.checked, Rfc8360.checked, Rfc8398.checked, Rfc8410.checked, Rfc8418.checked, Rfc8419.checked, Rfc8479.checked, Rfc8494.checked, Rfc8520.checked, Rfc8619.checked, Rfc8649.checked, Rfc8692.checked, Rfc8696.checked, Rfc8702.checked, Rfc8708.checked, Rfc8769.checked, nofun⟩

end Built
end Verif
