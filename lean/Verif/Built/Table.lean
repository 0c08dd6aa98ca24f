import Verif.Spec.Built
import Verif.Built.Rfc1155
import Verif.Built.Rfc1157
import Verif.Built.Rfc1901
import Verif.Built.Rfc1902
import Verif.Built.Rfc1905
import Verif.Built.Rfc2251
import Verif.Built.Rfc2314
import Verif.Built.Rfc2315
import Verif.Built.Rfc2437
import Verif.Built.Rfc2459
import Verif.Built.Rfc2511
import Verif.Built.Rfc2560
import Verif.Built.Rfc2631
import Verif.Built.Rfc2634
import Verif.Built.Rfc2876
import Verif.Built.Rfc2985
import Verif.Built.Rfc2986
import Verif.Built.Rfc3058
import Verif.Built.Rfc3114
import Verif.Built.Rfc3125
import Verif.Built.Rfc3161
import Verif.Built.Rfc3274
import Verif.Built.Rfc3279
import Verif.Built.Rfc3280
import Verif.Built.Rfc3281
import Verif.Built.Rfc3370
import Verif.Built.Rfc3412
import Verif.Built.Rfc3414
import Verif.Built.Rfc3447
import Verif.Built.Rfc3537
import Verif.Built.Rfc3560
import Verif.Built.Rfc3565
import Verif.Built.Rfc3657
import Verif.Built.Rfc3709
import Verif.Built.Rfc3739
import Verif.Built.Rfc3770
import Verif.Built.Rfc3779
import Verif.Built.Rfc3820
import Verif.Built.Rfc3852
import Verif.Built.Rfc4010
import Verif.Built.Rfc4043
import Verif.Built.Rfc4055
import Verif.Built.Rfc4073
import Verif.Built.Rfc4108
import Verif.Built.Rfc4210
import Verif.Built.Rfc4211
import Verif.Built.Rfc4334
import Verif.Built.Rfc4357
import Verif.Built.Rfc4387
import Verif.Built.Rfc4476
import Verif.Built.Rfc4490
import Verif.Built.Rfc4491
import Verif.Built.Rfc4683
import Verif.Built.Rfc4985
import Verif.Built.Rfc5035
import Verif.Built.Rfc5083
import Verif.Built.Rfc5084
import Verif.Built.Rfc5126
import Verif.Built.Rfc5208
import Verif.Built.Rfc5275
import Verif.Built.Rfc5280
import Verif.Built.Rfc5480
import Verif.Built.Rfc5636
import Verif.Built.Rfc5639
import Verif.Built.Rfc5649
import Verif.Built.Rfc5652
import Verif.Built.Rfc5697
import Verif.Built.Rfc5751
import Verif.Built.Rfc5752
import Verif.Built.Rfc5753
import Verif.Built.Rfc5755
import Verif.Built.Rfc5913
import Verif.Built.Rfc5914
import Verif.Built.Rfc5915
import Verif.Built.Rfc5916
import Verif.Built.Rfc5917
import Verif.Built.Rfc5924
import Verif.Built.Rfc5934
import Verif.Built.Rfc5940
import Verif.Built.Rfc5958
import Verif.Built.Rfc5990
import Verif.Built.Rfc6010
import Verif.Built.Rfc6019
import Verif.Built.Rfc6031
import Verif.Built.Rfc6032
import Verif.Built.Rfc6120
import Verif.Built.Rfc6170
import Verif.Built.Rfc6187
import Verif.Built.Rfc6210
import Verif.Built.Rfc6211
import Verif.Built.Rfc6402
import Verif.Built.Rfc6482
import Verif.Built.Rfc6486
import Verif.Built.Rfc6487
import Verif.Built.Rfc6664
import Verif.Built.Rfc6955
import Verif.Built.Rfc6960
import Verif.Built.Rfc7030
import Verif.Built.Rfc7191
import Verif.Built.Rfc7229
import Verif.Built.Rfc7292
import Verif.Built.Rfc7296
import Verif.Built.Rfc7508
import Verif.Built.Rfc7585
import Verif.Built.Rfc7633
import Verif.Built.Rfc7773
import Verif.Built.Rfc7894
import Verif.Built.Rfc7906
import Verif.Built.Rfc7914
import Verif.Built.Rfc8017
import Verif.Built.Rfc8018
import Verif.Built.Rfc8103
import Verif.Built.Rfc8209
import Verif.Built.Rfc8226
import Verif.Built.Rfc8358
import Verif.Built.Rfc8360
import Verif.Built.Rfc8398
import Verif.Built.Rfc8410
import Verif.Built.Rfc8418
import Verif.Built.Rfc8419
import Verif.Built.Rfc8479
import Verif.Built.Rfc8494
import Verif.Built.Rfc8520
import Verif.Built.Rfc8619
import Verif.Built.Rfc8649
import Verif.Built.Rfc8692
import Verif.Built.Rfc8696
import Verif.Built.Rfc8702
import Verif.Built.Rfc8708
import Verif.Built.Rfc8769

/-! The descriptions of all modules (generated by tools/builtgen.py). -/

set_option maxRecDepth 100000

namespace Verif
namespace Built

def descriptions : List Description :=
  [Rfc1155.description,
   Rfc1157.description,
   Rfc1901.description,
   Rfc1902.description,
   Rfc1905.description,
   Rfc2251.description,
   Rfc2314.description,
   Rfc2315.description,
   Rfc2437.description,
   Rfc2459.description,
   Rfc2511.description,
   Rfc2560.description,
   Rfc2631.description,
   Rfc2634.description,
   Rfc2876.description,
   Rfc2985.description,
   Rfc2986.description,
   Rfc3058.description,
   Rfc3114.description,
   Rfc3125.description,
   Rfc3161.description,
   Rfc3274.description,
   Rfc3279.description,
   Rfc3280.description,
   Rfc3281.description,
   Rfc3370.description,
   Rfc3412.description,
   Rfc3414.description,
   Rfc3447.description,
   Rfc3537.description,
   Rfc3560.description,
   Rfc3565.description,
   Rfc3657.description,
   Rfc3709.description,
   Rfc3739.description,
   Rfc3770.description,
   Rfc3779.description,
   Rfc3820.description,
   Rfc3852.description,
   Rfc4010.description,
   Rfc4043.description,
   Rfc4055.description,
   Rfc4073.description,
   Rfc4108.description,
   Rfc4210.description,
   Rfc4211.description,
   Rfc4334.description,
   Rfc4357.description,
   Rfc4387.description,
   Rfc4476.description,
   Rfc4490.description,
   Rfc4491.description,
   Rfc4683.description,
   Rfc4985.description,
   Rfc5035.description,
   Rfc5083.description,
   Rfc5084.description,
   Rfc5126.description,
   Rfc5208.description,
   Rfc5275.description,
   Rfc5280.description,
   Rfc5480.description,
   Rfc5636.description,
   Rfc5639.description,
   Rfc5649.description,
   Rfc5652.description,
   Rfc5697.description,
   Rfc5751.description,
   Rfc5752.description,
   Rfc5753.description,
   Rfc5755.description,
   Rfc5913.description,
   Rfc5914.description,
   Rfc5915.description,
   Rfc5916.description,
   Rfc5917.description,
   Rfc5924.description,
   Rfc5934.description,
   Rfc5940.description,
   Rfc5958.description,
   Rfc5990.description,
   Rfc6010.description,
   Rfc6019.description,
   Rfc6031.description,
   Rfc6032.description,
   Rfc6120.description,
   Rfc6170.description,
   Rfc6187.description,
   Rfc6210.description,
   Rfc6211.description,
   Rfc6402.description,
   Rfc6482.description,
   Rfc6486.description,
   Rfc6487.description,
   Rfc6664.description,
   Rfc6955.description,
   Rfc6960.description,
   Rfc7030.description,
   Rfc7191.description,
   Rfc7229.description,
   Rfc7292.description,
   Rfc7296.description,
   Rfc7508.description,
   Rfc7585.description,
   Rfc7633.description,
   Rfc7773.description,
   Rfc7894.description,
   Rfc7906.description,
   Rfc7914.description,
   Rfc8017.description,
   Rfc8018.description,
   Rfc8103.description,
   Rfc8209.description,
   Rfc8226.description,
   Rfc8358.description,
   Rfc8360.description,
   Rfc8398.description,
   Rfc8410.description,
   Rfc8418.description,
   Rfc8419.description,
   Rfc8479.description,
   Rfc8494.description,
   Rfc8520.description,
   Rfc8619.description,
   Rfc8649.description,
   Rfc8692.description,
   Rfc8696.description,
   Rfc8702.description,
   Rfc8708.description,
   Rfc8769.description]

end Built
end Verif
