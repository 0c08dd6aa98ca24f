import Verif.Gen.Rfc1155
import Verif.Gen.Rfc1157
import Verif.Gen.Rfc1901
import Verif.Gen.Rfc1902
import Verif.Gen.Rfc1905
import Verif.Gen.Rfc2251
import Verif.Gen.Rfc2314
import Verif.Gen.Rfc2315
import Verif.Gen.Rfc2437
import Verif.Gen.Rfc2459
import Verif.Gen.Rfc2511
import Verif.Gen.Rfc2560
import Verif.Gen.Rfc2631
import Verif.Gen.Rfc2634
import Verif.Gen.Rfc2876
import Verif.Gen.Rfc2985
import Verif.Gen.Rfc2986
import Verif.Gen.Rfc3058
import Verif.Gen.Rfc3114
import Verif.Gen.Rfc3125
import Verif.Gen.Rfc3161
import Verif.Gen.Rfc3274
import Verif.Gen.Rfc3279
import Verif.Gen.Rfc3280
import Verif.Gen.Rfc3281
import Verif.Gen.Rfc3370
import Verif.Gen.Rfc3412
import Verif.Gen.Rfc3414
import Verif.Gen.Rfc3447
import Verif.Gen.Rfc3537
import Verif.Gen.Rfc3560
import Verif.Gen.Rfc3565
import Verif.Gen.Rfc3657
import Verif.Gen.Rfc3709
import Verif.Gen.Rfc3739
import Verif.Gen.Rfc3770
import Verif.Gen.Rfc3779
import Verif.Gen.Rfc3820
import Verif.Gen.Rfc3852
import Verif.Gen.Rfc4010
import Verif.Gen.Rfc4043
import Verif.Gen.Rfc4055
import Verif.Gen.Rfc4073
import Verif.Gen.Rfc4108
import Verif.Gen.Rfc4210
import Verif.Gen.Rfc4211
import Verif.Gen.Rfc4334
import Verif.Gen.Rfc4357
import Verif.Gen.Rfc4387
import Verif.Gen.Rfc4476
import Verif.Gen.Rfc4490
import Verif.Gen.Rfc4491
import Verif.Gen.Rfc4683
import Verif.Gen.Rfc4985
import Verif.Gen.Rfc5035
import Verif.Gen.Rfc5083
import Verif.Gen.Rfc5084
import Verif.Gen.Rfc5126
import Verif.Gen.Rfc5208
import Verif.Gen.Rfc5275
import Verif.Gen.Rfc5280
import Verif.Gen.Rfc5480
import Verif.Gen.Rfc5636
import Verif.Gen.Rfc5639
import Verif.Gen.Rfc5649
import Verif.Gen.Rfc5652
import Verif.Gen.Rfc5697
import Verif.Gen.Rfc5751
import Verif.Gen.Rfc5752
import Verif.Gen.Rfc5753
import Verif.Gen.Rfc5755
import Verif.Gen.Rfc5913
import Verif.Gen.Rfc5914
import Verif.Gen.Rfc5915
import Verif.Gen.Rfc5916
import Verif.Gen.Rfc5917
import Verif.Gen.Rfc5924
import Verif.Gen.Rfc5934
import Verif.Gen.Rfc5940
import Verif.Gen.Rfc5958
import Verif.Gen.Rfc5990
import Verif.Gen.Rfc6010
import Verif.Gen.Rfc6019
import Verif.Gen.Rfc6031
import Verif.Gen.Rfc6032
import Verif.Gen.Rfc6120
import Verif.Gen.Rfc6170
import Verif.Gen.Rfc6187
import Verif.Gen.Rfc6210
import Verif.Gen.Rfc6211
import Verif.Gen.Rfc6402
import Verif.Gen.Rfc6482
import Verif.Gen.Rfc6486
import Verif.Gen.Rfc6487
import Verif.Gen.Rfc6664
import Verif.Gen.Rfc6955
import Verif.Gen.Rfc6960
import Verif.Gen.Rfc7030
import Verif.Gen.Rfc7191
import Verif.Gen.Rfc7229
import Verif.Gen.Rfc7292
import Verif.Gen.Rfc7296
import Verif.Gen.Rfc7508
import Verif.Gen.Rfc7585
import Verif.Gen.Rfc7633
import Verif.Gen.Rfc7773
import Verif.Gen.Rfc7894
import Verif.Gen.Rfc7906
import Verif.Gen.Rfc7914
import Verif.Gen.Rfc8017
import Verif.Gen.Rfc8018
import Verif.Gen.Rfc8103
import Verif.Gen.Rfc8209
import Verif.Gen.Rfc8226
import Verif.Gen.Rfc8358
import Verif.Gen.Rfc8360
import Verif.Gen.Rfc8398
import Verif.Gen.Rfc8410
import Verif.Gen.Rfc8418
import Verif.Gen.Rfc8419
import Verif.Gen.Rfc8479
import Verif.Gen.Rfc8494
import Verif.Gen.Rfc8520
import Verif.Gen.Rfc8619
import Verif.Gen.Rfc8649
import Verif.Gen.Rfc8692
import Verif.Gen.Rfc8696
import Verif.Gen.Rfc8702
import Verif.Gen.Rfc8708
import Verif.Gen.Rfc8769

/-! The package: every rfc*.py module of /repo/pyasn1_modules (generated by tools/gen.py). -/

namespace Verif
namespace Package

/-- Every module of the package. -/
def modules : List Py.Module :=
  [Rfc1155.asModule,
   Rfc1157.asModule,
   Rfc1901.asModule,
   Rfc1902.asModule,
   Rfc1905.asModule,
   Rfc2251.asModule,
   Rfc2314.asModule,
   Rfc2315.asModule,
   Rfc2437.asModule,
   Rfc2459.asModule,
   Rfc2511.asModule,
   Rfc2560.asModule,
   Rfc2631.asModule,
   Rfc2634.asModule,
   Rfc2876.asModule,
   Rfc2985.asModule,
   Rfc2986.asModule,
   Rfc3058.asModule,
   Rfc3114.asModule,
   Rfc3125.asModule,
   Rfc3161.asModule,
   Rfc3274.asModule,
   Rfc3279.asModule,
   Rfc3280.asModule,
   Rfc3281.asModule,
   Rfc3370.asModule,
   Rfc3412.asModule,
   Rfc3414.asModule,
   Rfc3447.asModule,
   Rfc3537.asModule,
   Rfc3560.asModule,
   Rfc3565.asModule,
   Rfc3657.asModule,
   Rfc3709.asModule,
   Rfc3739.asModule,
   Rfc3770.asModule,
   Rfc3779.asModule,
   Rfc3820.asModule,
   Rfc3852.asModule,
   Rfc4010.asModule,
   Rfc4043.asModule,
   Rfc4055.asModule,
   Rfc4073.asModule,
   Rfc4108.asModule,
   Rfc4210.asModule,
   Rfc4211.asModule,
   Rfc4334.asModule,
   Rfc4357.asModule,
   Rfc4387.asModule,
   Rfc4476.asModule,
   Rfc4490.asModule,
   Rfc4491.asModule,
   Rfc4683.asModule,
   Rfc4985.asModule,
   Rfc5035.asModule,
   Rfc5083.asModule,
   Rfc5084.asModule,
   Rfc5126.asModule,
   Rfc5208.asModule,
   Rfc5275.asModule,
   Rfc5280.asModule,
   Rfc5480.asModule,
   Rfc5636.asModule,
   Rfc5639.asModule,
   Rfc5649.asModule,
   Rfc5652.asModule,
   Rfc5697.asModule,
   Rfc5751.asModule,
   Rfc5752.asModule,
   Rfc5753.asModule,
   Rfc5755.asModule,
   Rfc5913.asModule,
   Rfc5914.asModule,
   Rfc5915.asModule,
   Rfc5916.asModule,
   Rfc5917.asModule,
   Rfc5924.asModule,
   Rfc5934.asModule,
   Rfc5940.asModule,
   Rfc5958.asModule,
   Rfc5990.asModule,
   Rfc6010.asModule,
   Rfc6019.asModule,
   Rfc6031.asModule,
   Rfc6032.asModule,
   Rfc6120.asModule,
   Rfc6170.asModule,
   Rfc6187.asModule,
   Rfc6210.asModule,
   Rfc6211.asModule,
   Rfc6402.asModule,
   Rfc6482.asModule,
   Rfc6486.asModule,
   Rfc6487.asModule,
   Rfc6664.asModule,
   Rfc6955.asModule,
   Rfc6960.asModule,
   Rfc7030.asModule,
   Rfc7191.asModule,
   Rfc7229.asModule,
   Rfc7292.asModule,
   Rfc7296.asModule,
   Rfc7508.asModule,
   Rfc7585.asModule,
   Rfc7633.asModule,
   Rfc7773.asModule,
   Rfc7894.asModule,
   Rfc7906.asModule,
   Rfc7914.asModule,
   Rfc8017.asModule,
   Rfc8018.asModule,
   Rfc8103.asModule,
   Rfc8209.asModule,
   Rfc8226.asModule,
   Rfc8358.asModule,
   Rfc8360.asModule,
   Rfc8398.asModule,
   Rfc8410.asModule,
   Rfc8418.asModule,
   Rfc8419.asModule,
   Rfc8479.asModule,
   Rfc8494.asModule,
   Rfc8520.asModule,
   Rfc8619.asModule,
   Rfc8649.asModule,
   Rfc8692.asModule,
   Rfc8696.asModule,
   Rfc8702.asModule,
   Rfc8708.asModule,
   Rfc8769.asModule]

end Package
end Verif
