import Verif.Std.Rfc1155
import Verif.Std.Rfc1157
import Verif.Std.Rfc1901
import Verif.Std.Rfc1902
import Verif.Std.Rfc1905
import Verif.Std.Rfc2251
import Verif.Std.Rfc2314
import Verif.Std.Rfc2315
import Verif.Std.Rfc2437
import Verif.Std.Rfc2459
import Verif.Std.Rfc2511
import Verif.Std.Rfc2560
import Verif.Std.Rfc2631
import Verif.Std.Rfc2634
import Verif.Std.Rfc2876
import Verif.Std.Rfc2985
import Verif.Std.Rfc2986
import Verif.Std.Rfc3058
import Verif.Std.Rfc3114
import Verif.Std.Rfc3125
import Verif.Std.Rfc3161
import Verif.Std.Rfc3274
import Verif.Std.Rfc3279
import Verif.Std.Rfc3280
import Verif.Std.Rfc3281
import Verif.Std.Rfc3370
import Verif.Std.Rfc3412
import Verif.Std.Rfc3414
import Verif.Std.Rfc3447
import Verif.Std.Rfc3537
import Verif.Std.Rfc3560
import Verif.Std.Rfc3565
import Verif.Std.Rfc3657
import Verif.Std.Rfc3709
import Verif.Std.Rfc3739
import Verif.Std.Rfc3770
import Verif.Std.Rfc3779
import Verif.Std.Rfc3820
import Verif.Std.Rfc3852
import Verif.Std.Rfc4010
import Verif.Std.Rfc4043
import Verif.Std.Rfc4055
import Verif.Std.Rfc4073
import Verif.Std.Rfc4108
import Verif.Std.Rfc4210
import Verif.Std.Rfc4211
import Verif.Std.Rfc4334
import Verif.Std.Rfc4357
import Verif.Std.Rfc4387
import Verif.Std.Rfc4476
import Verif.Std.Rfc4490
import Verif.Std.Rfc4491
import Verif.Std.Rfc4683
import Verif.Std.Rfc4985
import Verif.Std.Rfc5035
import Verif.Std.Rfc5083
import Verif.Std.Rfc5084
import Verif.Std.Rfc5126
import Verif.Std.Rfc5208
import Verif.Std.Rfc5275
import Verif.Std.Rfc5280
import Verif.Std.Rfc5480
import Verif.Std.Rfc5639
import Verif.Std.Rfc5649
import Verif.Std.Rfc5652
import Verif.Std.Rfc5697
import Verif.Std.Rfc5751
import Verif.Std.Rfc5752
import Verif.Std.Rfc5753
import Verif.Std.Rfc5755
import Verif.Std.Rfc5913
import Verif.Std.Rfc5914
import Verif.Std.Rfc5915
import Verif.Std.Rfc5916
import Verif.Std.Rfc5917
import Verif.Std.Rfc5924
import Verif.Std.Rfc5934
import Verif.Std.Rfc5940
import Verif.Std.Rfc5958
import Verif.Std.Rfc5990
import Verif.Std.Rfc6010
import Verif.Std.Rfc6019
import Verif.Std.Rfc6031
import Verif.Std.Rfc6032
import Verif.Std.Rfc6120
import Verif.Std.Rfc6170
import Verif.Std.Rfc6187
import Verif.Std.Rfc6210
import Verif.Std.Rfc6211
import Verif.Std.Rfc6402
import Verif.Std.Rfc6482
import Verif.Std.Rfc6486
import Verif.Std.Rfc6487
import Verif.Std.Rfc6664
import Verif.Std.Rfc6955
import Verif.Std.Rfc6960
import Verif.Std.Rfc7030
import Verif.Std.Rfc7191
import Verif.Std.Rfc7229
import Verif.Std.Rfc7292
import Verif.Std.Rfc7296
import Verif.Std.Rfc7508
import Verif.Std.Rfc7585
import Verif.Std.Rfc7633
import Verif.Std.Rfc7773
import Verif.Std.Rfc7894
import Verif.Std.Rfc7906
import Verif.Std.Rfc7914
import Verif.Std.Rfc8017
import Verif.Std.Rfc8018
import Verif.Std.Rfc8103
import Verif.Std.Rfc8209
import Verif.Std.Rfc8226
import Verif.Std.Rfc8358
import Verif.Std.Rfc8360
import Verif.Std.Rfc8398
import Verif.Std.Rfc8410
import Verif.Std.Rfc8418
import Verif.Std.Rfc8419
import Verif.Std.Rfc8479
import Verif.Std.Rfc8494
import Verif.Std.Rfc8520
import Verif.Std.Rfc8619
import Verif.Std.Rfc8649
import Verif.Std.Rfc8692
import Verif.Std.Rfc8696
import Verif.Std.Rfc8702
import Verif.Std.Rfc8708
import Verif.Std.Rfc8769

/-! The standards of tools/std (generated by tools/stdgen.py). -/

namespace Verif
namespace Std

def standards : List Standard :=
  [Rfc1155.standard,
   Rfc1157.standard,
   Rfc1901.standard,
   Rfc1902.standard,
   Rfc1905.standard,
   Rfc2251.standard,
   Rfc2314.standard,
   Rfc2315.standard,
   Rfc2437.standard,
   Rfc2459.standard,
   Rfc2511.standard,
   Rfc2560.standard,
   Rfc2631.standard,
   Rfc2634.standard,
   Rfc2876.standard,
   Rfc2985.standard,
   Rfc2986.standard,
   Rfc3058.standard,
   Rfc3114.standard,
   Rfc3125.standard,
   Rfc3161.standard,
   Rfc3274.standard,
   Rfc3279.standard,
   Rfc3280.standard,
   Rfc3281.standard,
   Rfc3370.standard,
   Rfc3412.standard,
   Rfc3414.standard,
   Rfc3447.standard,
   Rfc3537.standard,
   Rfc3560.standard,
   Rfc3565.standard,
   Rfc3657.standard,
   Rfc3709.standard,
   Rfc3739.standard,
   Rfc3770.standard,
   Rfc3779.standard,
   Rfc3820.standard,
   Rfc3852.standard,
   Rfc4010.standard,
   Rfc4043.standard,
   Rfc4055.standard,
   Rfc4073.standard,
   Rfc4108.standard,
   Rfc4210.standard,
   Rfc4211.standard,
   Rfc4334.standard,
   Rfc4357.standard,
   Rfc4387.standard,
   Rfc4476.standard,
   Rfc4490.standard,
   Rfc4491.standard,
   Rfc4683.standard,
   Rfc4985.standard,
   Rfc5035.standard,
   Rfc5083.standard,
   Rfc5084.standard,
   Rfc5126.standard,
   Rfc5208.standard,
   Rfc5275.standard,
   Rfc5280.standard,
   Rfc5480.standard,
   Rfc5639.standard,
   Rfc5649.standard,
   Rfc5652.standard,
   Rfc5697.standard,
   Rfc5751.standard,
   Rfc5752.standard,
   Rfc5753.standard,
   Rfc5755.standard,
   Rfc5913.standard,
   Rfc5914.standard,
   Rfc5915.standard,
   Rfc5916.standard,
   Rfc5917.standard,
   Rfc5924.standard,
   Rfc5934.standard,
   Rfc5940.standard,
   Rfc5958.standard,
   Rfc5990.standard,
   Rfc6010.standard,
   Rfc6019.standard,
   Rfc6031.standard,
   Rfc6032.standard,
   Rfc6120.standard,
   Rfc6170.standard,
   Rfc6187.standard,
   Rfc6210.standard,
   Rfc6211.standard,
   Rfc6402.standard,
   Rfc6482.standard,
   Rfc6486.standard,
   Rfc6487.standard,
   Rfc6664.standard,
   Rfc6955.standard,
   Rfc6960.standard,
   Rfc7030.standard,
   Rfc7191.standard,
   Rfc7229.standard,
   Rfc7292.standard,
   Rfc7296.standard,
   Rfc7508.standard,
   Rfc7585.standard,
   Rfc7633.standard,
   Rfc7773.standard,
   Rfc7894.standard,
   Rfc7906.standard,
   Rfc7914.standard,
   Rfc8017.standard,
   Rfc8018.standard,
   Rfc8103.standard,
   Rfc8209.standard,
   Rfc8226.standard,
   Rfc8358.standard,
   Rfc8360.standard,
   Rfc8398.standard,
   Rfc8410.standard,
   Rfc8418.standard,
   Rfc8419.standard,
   Rfc8479.standard,
   Rfc8494.standard,
   Rfc8520.standard,
   Rfc8619.standard,
   Rfc8649.standard,
   Rfc8692.standard,
   Rfc8696.standard,
   Rfc8702.standard,
   Rfc8708.standard,
   Rfc8769.standard]

end Std
end Verif
