import Verif.Gen.Package

/-! No instantiation of a class is a stale copy (generated by tools/gen.py). -/

namespace Verif

/-- Check the entries one by one. -/
macro "all_final" : tactic =>
  `(tactic| repeat (first | exact List.forall_mem_nil _ | refine List.forall_mem_cons.2 ⟨rfl, ?_⟩))

theorem Rfc1155.final : ∀ s ∈ Rfc1155.snapshots, s.used = s.final := by
  unfold Rfc1155.snapshots; all_final

theorem Rfc1157.final : ∀ s ∈ Rfc1157.snapshots, s.used = s.final := by
  unfold Rfc1157.snapshots; all_final

theorem Rfc1901.final : ∀ s ∈ Rfc1901.snapshots, s.used = s.final := by
  unfold Rfc1901.snapshots; all_final

theorem Rfc1902.final : ∀ s ∈ Rfc1902.snapshots, s.used = s.final := by
  unfold Rfc1902.snapshots; all_final

theorem Rfc1905.final : ∀ s ∈ Rfc1905.snapshots, s.used = s.final := by
  unfold Rfc1905.snapshots; all_final

theorem Rfc2251.final : ∀ s ∈ Rfc2251.snapshots, s.used = s.final := by
  unfold Rfc2251.snapshots; all_final

theorem Rfc2314.final : ∀ s ∈ Rfc2314.snapshots, s.used = s.final := by
  unfold Rfc2314.snapshots; all_final

theorem Rfc2315.final : ∀ s ∈ Rfc2315.snapshots, s.used = s.final := by
  unfold Rfc2315.snapshots; all_final

theorem Rfc2437.final : ∀ s ∈ Rfc2437.snapshots, s.used = s.final := by
  unfold Rfc2437.snapshots; all_final

theorem Rfc2459.final : ∀ s ∈ Rfc2459.snapshots, s.used = s.final := by
  unfold Rfc2459.snapshots; all_final

theorem Rfc2511.final : ∀ s ∈ Rfc2511.snapshots, s.used = s.final := by
  unfold Rfc2511.snapshots; all_final

theorem Rfc2560.final : ∀ s ∈ Rfc2560.snapshots, s.used = s.final := by
  unfold Rfc2560.snapshots; all_final

theorem Rfc2631.final : ∀ s ∈ Rfc2631.snapshots, s.used = s.final := by
  unfold Rfc2631.snapshots; all_final

theorem Rfc2634.final : ∀ s ∈ Rfc2634.snapshots, s.used = s.final := by
  unfold Rfc2634.snapshots; all_final

theorem Rfc2876.final : ∀ s ∈ Rfc2876.snapshots, s.used = s.final := by
  unfold Rfc2876.snapshots; all_final

theorem Rfc2985.final : ∀ s ∈ Rfc2985.snapshots, s.used = s.final := by
  unfold Rfc2985.snapshots; all_final

theorem Rfc2986.final : ∀ s ∈ Rfc2986.snapshots, s.used = s.final := by
  unfold Rfc2986.snapshots; all_final

theorem Rfc3058.final : ∀ s ∈ Rfc3058.snapshots, s.used = s.final := by
  unfold Rfc3058.snapshots; all_final

theorem Rfc3114.final : ∀ s ∈ Rfc3114.snapshots, s.used = s.final := by
  unfold Rfc3114.snapshots; all_final

theorem Rfc3125.final : ∀ s ∈ Rfc3125.snapshots, s.used = s.final := by
  unfold Rfc3125.snapshots; all_final

theorem Rfc3161.final : ∀ s ∈ Rfc3161.snapshots, s.used = s.final := by
  unfold Rfc3161.snapshots; all_final

theorem Rfc3274.final : ∀ s ∈ Rfc3274.snapshots, s.used = s.final := by
  unfold Rfc3274.snapshots; all_final

theorem Rfc3279.final : ∀ s ∈ Rfc3279.snapshots, s.used = s.final := by
  unfold Rfc3279.snapshots; all_final

theorem Rfc3280.final : ∀ s ∈ Rfc3280.snapshots, s.used = s.final := by
  unfold Rfc3280.snapshots; all_final

theorem Rfc3281.final : ∀ s ∈ Rfc3281.snapshots, s.used = s.final := by
  unfold Rfc3281.snapshots; all_final

theorem Rfc3370.final : ∀ s ∈ Rfc3370.snapshots, s.used = s.final := by
  unfold Rfc3370.snapshots; all_final

theorem Rfc3412.final : ∀ s ∈ Rfc3412.snapshots, s.used = s.final := by
  unfold Rfc3412.snapshots; all_final

theorem Rfc3414.final : ∀ s ∈ Rfc3414.snapshots, s.used = s.final := by
  unfold Rfc3414.snapshots; all_final

theorem Rfc3447.final : ∀ s ∈ Rfc3447.snapshots, s.used = s.final := by
  unfold Rfc3447.snapshots; all_final

theorem Rfc3537.final : ∀ s ∈ Rfc3537.snapshots, s.used = s.final := by
  unfold Rfc3537.snapshots; all_final

theorem Rfc3560.final : ∀ s ∈ Rfc3560.snapshots, s.used = s.final := by
  unfold Rfc3560.snapshots; all_final

theorem Rfc3565.final : ∀ s ∈ Rfc3565.snapshots, s.used = s.final := by
  unfold Rfc3565.snapshots; all_final

theorem Rfc3657.final : ∀ s ∈ Rfc3657.snapshots, s.used = s.final := by
  unfold Rfc3657.snapshots; all_final

theorem Rfc3709.final : ∀ s ∈ Rfc3709.snapshots, s.used = s.final := by
  unfold Rfc3709.snapshots; all_final

theorem Rfc3739.final : ∀ s ∈ Rfc3739.snapshots, s.used = s.final := by
  unfold Rfc3739.snapshots; all_final

theorem Rfc3770.final : ∀ s ∈ Rfc3770.snapshots, s.used = s.final := by
  unfold Rfc3770.snapshots; all_final

theorem Rfc3779.final : ∀ s ∈ Rfc3779.snapshots, s.used = s.final := by
  unfold Rfc3779.snapshots; all_final

theorem Rfc3820.final : ∀ s ∈ Rfc3820.snapshots, s.used = s.final := by
  unfold Rfc3820.snapshots; all_final

theorem Rfc3852.final : ∀ s ∈ Rfc3852.snapshots, s.used = s.final := by
  unfold Rfc3852.snapshots; all_final

theorem Rfc4010.final : ∀ s ∈ Rfc4010.snapshots, s.used = s.final := by
  unfold Rfc4010.snapshots; all_final

theorem Rfc4043.final : ∀ s ∈ Rfc4043.snapshots, s.used = s.final := by
  unfold Rfc4043.snapshots; all_final

theorem Rfc4055.final : ∀ s ∈ Rfc4055.snapshots, s.used = s.final := by
  unfold Rfc4055.snapshots; all_final

theorem Rfc4073.final : ∀ s ∈ Rfc4073.snapshots, s.used = s.final := by
  unfold Rfc4073.snapshots; all_final

theorem Rfc4108.final : ∀ s ∈ Rfc4108.snapshots, s.used = s.final := by
  unfold Rfc4108.snapshots; all_final

theorem Rfc4210.final : ∀ s ∈ Rfc4210.snapshots, s.used = s.final := by
  unfold Rfc4210.snapshots; all_final

theorem Rfc4211.final : ∀ s ∈ Rfc4211.snapshots, s.used = s.final := by
  unfold Rfc4211.snapshots; all_final

theorem Rfc4334.final : ∀ s ∈ Rfc4334.snapshots, s.used = s.final := by
  unfold Rfc4334.snapshots; all_final

theorem Rfc4357.final : ∀ s ∈ Rfc4357.snapshots, s.used = s.final := by
  unfold Rfc4357.snapshots; all_final

theorem Rfc4387.final : ∀ s ∈ Rfc4387.snapshots, s.used = s.final := by
  unfold Rfc4387.snapshots; all_final

theorem Rfc4476.final : ∀ s ∈ Rfc4476.snapshots, s.used = s.final := by
  unfold Rfc4476.snapshots; all_final

theorem Rfc4490.final : ∀ s ∈ Rfc4490.snapshots, s.used = s.final := by
  unfold Rfc4490.snapshots; all_final

theorem Rfc4491.final : ∀ s ∈ Rfc4491.snapshots, s.used = s.final := by
  unfold Rfc4491.snapshots; all_final

theorem Rfc4683.final : ∀ s ∈ Rfc4683.snapshots, s.used = s.final := by
  unfold Rfc4683.snapshots; all_final

theorem Rfc4985.final : ∀ s ∈ Rfc4985.snapshots, s.used = s.final := by
  unfold Rfc4985.snapshots; all_final

theorem Rfc5035.final : ∀ s ∈ Rfc5035.snapshots, s.used = s.final := by
  unfold Rfc5035.snapshots; all_final

theorem Rfc5083.final : ∀ s ∈ Rfc5083.snapshots, s.used = s.final := by
  unfold Rfc5083.snapshots; all_final

theorem Rfc5084.final : ∀ s ∈ Rfc5084.snapshots, s.used = s.final := by
  unfold Rfc5084.snapshots; all_final

theorem Rfc5126.final : ∀ s ∈ Rfc5126.snapshots, s.used = s.final := by
  unfold Rfc5126.snapshots; all_final

theorem Rfc5208.final : ∀ s ∈ Rfc5208.snapshots, s.used = s.final := by
  unfold Rfc5208.snapshots; all_final

theorem Rfc5275.final : ∀ s ∈ Rfc5275.snapshots, s.used = s.final := by
  unfold Rfc5275.snapshots; all_final

theorem Rfc5280.final : ∀ s ∈ Rfc5280.snapshots, s.used = s.final := by
  unfold Rfc5280.snapshots; all_final

theorem Rfc5480.final : ∀ s ∈ Rfc5480.snapshots, s.used = s.final := by
  unfold Rfc5480.snapshots; all_final

theorem Rfc5636.final : ∀ s ∈ Rfc5636.snapshots, s.used = s.final := by
  unfold Rfc5636.snapshots; all_final

theorem Rfc5639.final : ∀ s ∈ Rfc5639.snapshots, s.used = s.final := by
  unfold Rfc5639.snapshots; all_final

theorem Rfc5649.final : ∀ s ∈ Rfc5649.snapshots, s.used = s.final := by
  unfold Rfc5649.snapshots; all_final

theorem Rfc5652.final : ∀ s ∈ Rfc5652.snapshots, s.used = s.final := by
  unfold Rfc5652.snapshots; all_final

theorem Rfc5697.final : ∀ s ∈ Rfc5697.snapshots, s.used = s.final := by
  unfold Rfc5697.snapshots; all_final

theorem Rfc5751.final : ∀ s ∈ Rfc5751.snapshots, s.used = s.final := by
  unfold Rfc5751.snapshots; all_final

theorem Rfc5752.final : ∀ s ∈ Rfc5752.snapshots, s.used = s.final := by
  unfold Rfc5752.snapshots; all_final

theorem Rfc5753.final : ∀ s ∈ Rfc5753.snapshots, s.used = s.final := by
  unfold Rfc5753.snapshots; all_final

theorem Rfc5755.final : ∀ s ∈ Rfc5755.snapshots, s.used = s.final := by
  unfold Rfc5755.snapshots; all_final

theorem Rfc5913.final : ∀ s ∈ Rfc5913.snapshots, s.used = s.final := by
  unfold Rfc5913.snapshots; all_final

theorem Rfc5914.final : ∀ s ∈ Rfc5914.snapshots, s.used = s.final := by
  unfold Rfc5914.snapshots; all_final

theorem Rfc5915.final : ∀ s ∈ Rfc5915.snapshots, s.used = s.final := by
  unfold Rfc5915.snapshots; all_final

theorem Rfc5916.final : ∀ s ∈ Rfc5916.snapshots, s.used = s.final := by
  unfold Rfc5916.snapshots; all_final

theorem Rfc5917.final : ∀ s ∈ Rfc5917.snapshots, s.used = s.final := by
  unfold Rfc5917.snapshots; all_final

theorem Rfc5924.final : ∀ s ∈ Rfc5924.snapshots, s.used = s.final := by
  unfold Rfc5924.snapshots; all_final

theorem Rfc5934.final : ∀ s ∈ Rfc5934.snapshots, s.used = s.final := by
  unfold Rfc5934.snapshots; all_final

theorem Rfc5940.final : ∀ s ∈ Rfc5940.snapshots, s.used = s.final := by
  unfold Rfc5940.snapshots; all_final

theorem Rfc5958.final : ∀ s ∈ Rfc5958.snapshots, s.used = s.final := by
  unfold Rfc5958.snapshots; all_final

theorem Rfc5990.final : ∀ s ∈ Rfc5990.snapshots, s.used = s.final := by
  unfold Rfc5990.snapshots; all_final

theorem Rfc6010.final : ∀ s ∈ Rfc6010.snapshots, s.used = s.final := by
  unfold Rfc6010.snapshots; all_final

theorem Rfc6019.final : ∀ s ∈ Rfc6019.snapshots, s.used = s.final := by
  unfold Rfc6019.snapshots; all_final

theorem Rfc6031.final : ∀ s ∈ Rfc6031.snapshots, s.used = s.final := by
  unfold Rfc6031.snapshots; all_final

theorem Rfc6032.final : ∀ s ∈ Rfc6032.snapshots, s.used = s.final := by
  unfold Rfc6032.snapshots; all_final

theorem Rfc6120.final : ∀ s ∈ Rfc6120.snapshots, s.used = s.final := by
  unfold Rfc6120.snapshots; all_final

theorem Rfc6170.final : ∀ s ∈ Rfc6170.snapshots, s.used = s.final := by
  unfold Rfc6170.snapshots; all_final

theorem Rfc6187.final : ∀ s ∈ Rfc6187.snapshots, s.used = s.final := by
  unfold Rfc6187.snapshots; all_final

theorem Rfc6210.final : ∀ s ∈ Rfc6210.snapshots, s.used = s.final := by
  unfold Rfc6210.snapshots; all_final

theorem Rfc6211.final : ∀ s ∈ Rfc6211.snapshots, s.used = s.final := by
  unfold Rfc6211.snapshots; all_final

theorem Rfc6402.final : ∀ s ∈ Rfc6402.snapshots, s.used = s.final := by
  unfold Rfc6402.snapshots; all_final

theorem Rfc6482.final : ∀ s ∈ Rfc6482.snapshots, s.used = s.final := by
  unfold Rfc6482.snapshots; all_final

theorem Rfc6486.final : ∀ s ∈ Rfc6486.snapshots, s.used = s.final := by
  unfold Rfc6486.snapshots; all_final

theorem Rfc6487.final : ∀ s ∈ Rfc6487.snapshots, s.used = s.final := by
  unfold Rfc6487.snapshots; all_final

theorem Rfc6664.final : ∀ s ∈ Rfc6664.snapshots, s.used = s.final := by
  unfold Rfc6664.snapshots; all_final

theorem Rfc6955.final : ∀ s ∈ Rfc6955.snapshots, s.used = s.final := by
  unfold Rfc6955.snapshots; all_final

theorem Rfc6960.final : ∀ s ∈ Rfc6960.snapshots, s.used = s.final := by
  unfold Rfc6960.snapshots; all_final

theorem Rfc7030.final : ∀ s ∈ Rfc7030.snapshots, s.used = s.final := by
  unfold Rfc7030.snapshots; all_final

theorem Rfc7191.final : ∀ s ∈ Rfc7191.snapshots, s.used = s.final := by
  unfold Rfc7191.snapshots; all_final

theorem Rfc7229.final : ∀ s ∈ Rfc7229.snapshots, s.used = s.final := by
  unfold Rfc7229.snapshots; all_final

theorem Rfc7292.final : ∀ s ∈ Rfc7292.snapshots, s.used = s.final := by
  unfold Rfc7292.snapshots; all_final

theorem Rfc7296.final : ∀ s ∈ Rfc7296.snapshots, s.used = s.final := by
  unfold Rfc7296.snapshots; all_final

theorem Rfc7508.final : ∀ s ∈ Rfc7508.snapshots, s.used = s.final := by
  unfold Rfc7508.snapshots; all_final

theorem Rfc7585.final : ∀ s ∈ Rfc7585.snapshots, s.used = s.final := by
  unfold Rfc7585.snapshots; all_final

theorem Rfc7633.final : ∀ s ∈ Rfc7633.snapshots, s.used = s.final := by
  unfold Rfc7633.snapshots; all_final

theorem Rfc7773.final : ∀ s ∈ Rfc7773.snapshots, s.used = s.final := by
  unfold Rfc7773.snapshots; all_final

theorem Rfc7894.final : ∀ s ∈ Rfc7894.snapshots, s.used = s.final := by
  unfold Rfc7894.snapshots; all_final

theorem Rfc7906.final : ∀ s ∈ Rfc7906.snapshots, s.used = s.final := by
  unfold Rfc7906.snapshots; all_final

theorem Rfc7914.final : ∀ s ∈ Rfc7914.snapshots, s.used = s.final := by
  unfold Rfc7914.snapshots; all_final

theorem Rfc8017.final : ∀ s ∈ Rfc8017.snapshots, s.used = s.final := by
  unfold Rfc8017.snapshots; all_final

theorem Rfc8018.final : ∀ s ∈ Rfc8018.snapshots, s.used = s.final := by
  unfold Rfc8018.snapshots; all_final

theorem Rfc8103.final : ∀ s ∈ Rfc8103.snapshots, s.used = s.final := by
  unfold Rfc8103.snapshots; all_final

theorem Rfc8209.final : ∀ s ∈ Rfc8209.snapshots, s.used = s.final := by
  unfold Rfc8209.snapshots; all_final

theorem Rfc8226.final : ∀ s ∈ Rfc8226.snapshots, s.used = s.final := by
  unfold Rfc8226.snapshots; all_final

theorem Rfc8358.final : ∀ s ∈ Rfc8358.snapshots, s.used = s.final := by
  unfold Rfc8358.snapshots; all_final

theorem Rfc8360.final : ∀ s ∈ Rfc8360.snapshots, s.used = s.final := by
  unfold Rfc8360.snapshots; all_final

theorem Rfc8398.final : ∀ s ∈ Rfc8398.snapshots, s.used = s.final := by
  unfold Rfc8398.snapshots; all_final

theorem Rfc8410.final : ∀ s ∈ Rfc8410.snapshots, s.used = s.final := by
  unfold Rfc8410.snapshots; all_final

theorem Rfc8418.final : ∀ s ∈ Rfc8418.snapshots, s.used = s.final := by
  unfold Rfc8418.snapshots; all_final

theorem Rfc8419.final : ∀ s ∈ Rfc8419.snapshots, s.used = s.final := by
  unfold Rfc8419.snapshots; all_final

theorem Rfc8479.final : ∀ s ∈ Rfc8479.snapshots, s.used = s.final := by
  unfold Rfc8479.snapshots; all_final

theorem Rfc8494.final : ∀ s ∈ Rfc8494.snapshots, s.used = s.final := by
  unfold Rfc8494.snapshots; all_final

theorem Rfc8520.final : ∀ s ∈ Rfc8520.snapshots, s.used = s.final := by
  unfold Rfc8520.snapshots; all_final

theorem Rfc8619.final : ∀ s ∈ Rfc8619.snapshots, s.used = s.final := by
  unfold Rfc8619.snapshots; all_final

theorem Rfc8649.final : ∀ s ∈ Rfc8649.snapshots, s.used = s.final := by
  unfold Rfc8649.snapshots; all_final

theorem Rfc8692.final : ∀ s ∈ Rfc8692.snapshots, s.used = s.final := by
  unfold Rfc8692.snapshots; all_final

theorem Rfc8696.final : ∀ s ∈ Rfc8696.snapshots, s.used = s.final := by
  unfold Rfc8696.snapshots; all_final

theorem Rfc8702.final : ∀ s ∈ Rfc8702.snapshots, s.used = s.final := by
  unfold Rfc8702.snapshots; all_final

theorem Rfc8708.final : ∀ s ∈ Rfc8708.snapshots, s.used = s.final := by
  unfold Rfc8708.snapshots; all_final

theorem Rfc8769.final : ∀ s ∈ Rfc8769.snapshots, s.used = s.final := by
  unfold Rfc8769.snapshots; all_final

namespace Package

theorem final : ∀ m ∈ modules, ∀ s ∈ m.snapshots, s.used = s.final :=
  List.forall_mem_cons.2 ⟨Rfc1155.final,
  List.forall_mem_cons.2 ⟨Rfc1157.final,
  List.forall_mem_cons.2 ⟨Rfc1901.final,
  List.forall_mem_cons.2 ⟨Rfc1902.final,
  List.forall_mem_cons.2 ⟨Rfc1905.final,
  List.forall_mem_cons.2 ⟨Rfc2251.final,
  List.forall_mem_cons.2 ⟨Rfc2314.final,
  List.forall_mem_cons.2 ⟨Rfc2315.final,
  List.forall_mem_cons.2 ⟨Rfc2437.final,
  List.forall_mem_cons.2 ⟨Rfc2459.final,
  List.forall_mem_cons.2 ⟨Rfc2511.final,
  List.forall_mem_cons.2 ⟨Rfc2560.final,
  List.forall_mem_cons.2 ⟨Rfc2631.final,
  List.forall_mem_cons.2 ⟨Rfc2634.final,
  List.forall_mem_cons.2 ⟨Rfc2876.final,
  List.forall_mem_cons.2 ⟨Rfc2985.final,
  List.forall_mem_cons.2 ⟨Rfc2986.final,
  List.forall_mem_cons.2 ⟨Rfc3058.final,
  List.forall_mem_cons.2 ⟨Rfc3114.final,
  List.forall_mem_cons.2 ⟨Rfc3125.final,
  List.forall_mem_cons.2 ⟨Rfc3161.final,
  List.forall_mem_cons.2 ⟨Rfc3274.final,
  List.forall_mem_cons.2 ⟨Rfc3279.final,
  List.forall_mem_cons.2 ⟨Rfc3280.final,
  List.forall_mem_cons.2 ⟨Rfc3281.final,
  List.forall_mem_cons.2 ⟨Rfc3370.final,
  List.forall_mem_cons.2 ⟨Rfc3412.final,
  List.forall_mem_cons.2 ⟨Rfc3414.final,
  List.forall_mem_cons.2 ⟨Rfc3447.final,
  List.forall_mem_cons.2 ⟨Rfc3537.final,
  List.forall_mem_cons.2 ⟨Rfc3560.final,
  List.forall_mem_cons.2 ⟨Rfc3565.final,
  List.forall_mem_cons.2 ⟨Rfc3657.final,
  List.forall_mem_cons.2 ⟨Rfc3709.final,
  List.forall_mem_cons.2 ⟨Rfc3739.final,
  List.forall_mem_cons.2 ⟨Rfc3770.final,
  List.forall_mem_cons.2 ⟨Rfc3779.final,
  List.forall_mem_cons.2 ⟨Rfc3820.final,
  List.forall_mem_cons.2 ⟨Rfc3852.final,
  List.forall_mem_cons.2 ⟨Rfc4010.final,
  List.forall_mem_cons.2 ⟨Rfc4043.final,
  List.forall_mem_cons.2 ⟨Rfc4055.final,
  List.forall_mem_cons.2 ⟨Rfc4073.final,
  List.forall_mem_cons.2 ⟨Rfc4108.final,
  List.forall_mem_cons.2 ⟨Rfc4210.final,
  List.forall_mem_cons.2 ⟨Rfc4211.final,
  List.forall_mem_cons.2 ⟨Rfc4334.final,
  List.forall_mem_cons.2 ⟨Rfc4357.final,
  List.forall_mem_cons.2 ⟨Rfc4387.final,
  List.forall_mem_cons.2 ⟨Rfc4476.final,
  List.forall_mem_cons.2 ⟨Rfc4490.final,
  List.forall_mem_cons.2 ⟨Rfc4491.final,
  List.forall_mem_cons.2 ⟨Rfc4683.final,
  List.forall_mem_cons.2 ⟨Rfc4985.final,
  List.forall_mem_cons.2 ⟨Rfc5035.final,
  List.forall_mem_cons.2 ⟨Rfc5083.final,
  List.forall_mem_cons.2 ⟨Rfc5084.final,
  List.forall_mem_cons.2 ⟨Rfc5126.final,
  List.forall_mem_cons.2 ⟨Rfc5208.final,
  List.forall_mem_cons.2 ⟨Rfc5275.final,
  List.forall_mem_cons.2 ⟨Rfc5280.final,
  List.forall_mem_cons.2 ⟨Rfc5480.final,
  List.forall_mem_cons.2 ⟨Rfc5636.final,
  List.forall_mem_cons.2 ⟨Rfc5639.final,
  List.forall_mem_cons.2 ⟨Rfc5649.final,
  List.forall_mem_cons.2 ⟨Rfc5652.final,
  List.forall_mem_cons.2 ⟨Rfc5697.final,
  List.forall_mem_cons.2 ⟨Rfc5751.final,
  List.forall_mem_cons.2 ⟨Rfc5752.final,
  List.forall_mem_cons.2 ⟨Rfc5753.final,
  List.forall_mem_cons.2 ⟨Rfc5755.final,
  List.forall_mem_cons.2 ⟨Rfc5913.final,
  List.forall_mem_cons.2 ⟨Rfc5914.final,
  List.forall_mem_cons.2 ⟨Rfc5915.final,
  List.forall_mem_cons.2 ⟨Rfc5916.final,
  List.forall_mem_cons.2 ⟨Rfc5917.final,
  List.forall_mem_cons.2 ⟨Rfc5924.final,
  List.forall_mem_cons.2 ⟨Rfc5934.final,
  List.forall_mem_cons.2 ⟨Rfc5940.final,
  List.forall_mem_cons.2 ⟨Rfc5958.final,
  List.forall_mem_cons.2 ⟨Rfc5990.final,
  List.forall_mem_cons.2 ⟨Rfc6010.final,
  List.forall_mem_cons.2 ⟨Rfc6019.final,
  List.forall_mem_cons.2 ⟨Rfc6031.final,
  List.forall_mem_cons.2 ⟨Rfc6032.final,
  List.forall_mem_cons.2 ⟨Rfc6120.final,
  List.forall_mem_cons.2 ⟨Rfc6170.final,
  List.forall_mem_cons.2 ⟨Rfc6187.final,
  List.forall_mem_cons.2 ⟨Rfc6210.final,
  List.forall_mem_cons.2 ⟨Rfc6211.final,
  List.forall_mem_cons.2 ⟨Rfc6402.final,
  List.forall_mem_cons.2 ⟨Rfc6482.final,
  List.forall_mem_cons.2 ⟨Rfc6486.final,
  List.forall_mem_cons.2 ⟨Rfc6487.final,
  List.forall_mem_cons.2 ⟨Rfc6664.final,
  List.forall_mem_cons.2 ⟨Rfc6955.final,
  List.forall_mem_cons.2 ⟨Rfc6960.final,
  List.forall_mem_cons.2 ⟨Rfc7030.final,
  List.forall_mem_cons.2 ⟨Rfc7191.final,
  List.forall_mem_cons.2 ⟨Rfc7229.final,
  List.forall_mem_cons.2 ⟨Rfc7292.final,
  List.forall_mem_cons.2 ⟨Rfc7296.final,
  List.forall_mem_cons.2 ⟨Rfc7508.final,
  List.forall_mem_cons.2 ⟨Rfc7585.final,
  List.forall_mem_cons.2 ⟨Rfc7633.final,
  List.forall_mem_cons.2 ⟨Rfc7773.final,
  List.forall_mem_cons.2 ⟨Rfc7894.final,
  List.forall_mem_cons.2 ⟨Rfc7906.final,
  List.forall_mem_cons.2 ⟨Rfc7914.final,
  List.forall_mem_cons.2 ⟨Rfc8017.final,
  List.forall_mem_cons.2 ⟨Rfc8018.final,
  List.forall_mem_cons.2 ⟨Rfc8103.final,
  List.forall_mem_cons.2 ⟨Rfc8209.final,
  List.forall_mem_cons.2 ⟨Rfc8226.final,
  List.forall_mem_cons.2 ⟨Rfc8358.final,
  List.forall_mem_cons.2 ⟨Rfc8360.final,
  List.forall_mem_cons.2 ⟨Rfc8398.final,
  List.forall_mem_cons.2 ⟨Rfc8410.final,
  List.forall_mem_cons.2 ⟨Rfc8418.final,
  List.forall_mem_cons.2 ⟨Rfc8419.final,
  List.forall_mem_cons.2 ⟨Rfc8479.final,
  List.forall_mem_cons.2 ⟨Rfc8494.final,
  List.forall_mem_cons.2 ⟨Rfc8520.final,
  List.forall_mem_cons.2 ⟨Rfc8619.final,
  List.forall_mem_cons.2 ⟨Rfc8649.final,
  List.forall_mem_cons.2 ⟨Rfc8692.final,
  List.forall_mem_cons.2 ⟨Rfc8696.final,
  List.forall_mem_cons.2 ⟨Rfc8702.final,
  List.forall_mem_cons.2 ⟨Rfc8708.final,
  List.forall_mem_cons.2 ⟨Rfc8769.final,
  List.forall_mem_nil _⟩⟩⟩⟩⟩⟩⟩⟩⟩⟩⟩⟩⟩⟩⟩⟩⟩⟩⟩⟩⟩⟩⟩⟩⟩⟩⟩⟩⟩⟩⟩⟩⟩⟩⟩⟩⟩⟩⟩⟩⟩⟩⟩⟩⟩⟩⟩⟩⟩⟩⟩⟩⟩⟩⟩⟩⟩⟩⟩⟩⟩⟩⟩⟩⟩⟩⟩⟩⟩⟩⟩⟩⟩⟩⟩⟩⟩⟩⟩⟩⟩⟩⟩⟩⟩⟩⟩⟩⟩⟩⟩⟩⟩⟩⟩⟩⟩⟩⟩⟩⟩⟩⟩⟩⟩⟩⟩⟩⟩⟩⟩⟩⟩⟩⟩⟩⟩⟩⟩⟩⟩⟩⟩⟩⟩⟩⟩⟩⟩⟩

end Package
end Verif
