import Verif.Data.AreaEn4
/-!
# Generated: the bytes of the uncompressed files of names, each checked in parts: `geocoding/data/en.txt.gz`
-/
namespace Verif.Data

long_list areaEn before areaEnV1 "85ca0800"
theorem rd_areaEn : NameFile.u32 areaEn (fun n t => some (n, t)) = some (576133, areaEnV1) := by kernel_rfl

theorem rd_areaEn_v2 : NameFile.skipV 180000 0 true areaEnV1 = some (11775, false, areaEnV3) :=
  NameFile.skipV_trans rd_areaEnV1 rd_areaEnV2 (by decide)
theorem rd_areaEn_v3 : NameFile.skipV 270000 0 true areaEnV1 = some (17809, false, areaEnV4) :=
  NameFile.skipV_trans rd_areaEn_v2 rd_areaEnV3 (by decide)
theorem rd_areaEn_v4 : NameFile.skipV 360000 0 true areaEnV1 = some (23902, false, areaEnV5) :=
  NameFile.skipV_trans rd_areaEn_v3 rd_areaEnV4 (by decide)
theorem rd_areaEn_v5 : NameFile.skipV 450000 0 true areaEnV1 = some (29772, false, areaEnV6) :=
  NameFile.skipV_trans rd_areaEn_v4 rd_areaEnV5 (by decide)
theorem rd_areaEn_v6 : NameFile.skipV 540000 0 true areaEnV1 = some (35546, false, areaEnV7) :=
  NameFile.skipV_trans rd_areaEn_v5 rd_areaEnV6 (by decide)
theorem rd_areaEn_v7 : NameFile.skipV 576133 0 true areaEnV1 = some (38121, false, areaEnN) :=
  NameFile.skipV_trans rd_areaEn_v6 rd_areaEnV7 (by decide)

theorem rd_areaEn_e2 : NameFile.seg 38122 1000000000 59650 0 areaEnE1 = some (8186992, areaEnE3) :=
  NameFile.seg_trans rd_areaEnE1 rd_areaEnE2 (by decide)
theorem rd_areaEn_e3 : NameFile.seg 38122 1000000000 89464 0 areaEnE1 = some (61265273, areaEnE4) :=
  NameFile.seg_trans rd_areaEn_e2 rd_areaEnE3 (by decide)
theorem rd_areaEn_e4 : NameFile.seg 38122 1000000000 119404 0 areaEnE1 = some (61895027, areaEnE5) :=
  NameFile.seg_trans rd_areaEn_e3 rd_areaEnE4 (by decide)
theorem rd_areaEn_e5 : NameFile.seg 38122 1000000000 149318 0 areaEnE1 = some (617442945, areaEnE6) :=
  NameFile.seg_trans rd_areaEn_e4 rd_areaEnE5 (by decide)
theorem rd_areaEn_e6 : NameFile.seg 38122 1000000000 179280 0 areaEnE1 = some (861338582, areaEnE7) :=
  NameFile.seg_trans rd_areaEn_e5 rd_areaEnE6 (by decide)
theorem rd_areaEn_e7 : NameFile.seg 38122 1000000000 209244 0 areaEnE1 = some (861520666, areaEnE8) :=
  NameFile.seg_trans rd_areaEn_e6 rd_areaEnE7 (by decide)
theorem rd_areaEn_e8 : NameFile.seg 38122 1000000000 239213 0 areaEnE1 = some (861781743, areaEnE9) :=
  NameFile.seg_trans rd_areaEn_e7 rd_areaEnE8 (by decide)
theorem rd_areaEn_e9 : NameFile.seg 38122 1000000000 269171 0 areaEnE1 = some (861899456, areaEnE10) :=
  NameFile.seg_trans rd_areaEn_e8 rd_areaEnE9 (by decide)
theorem rd_areaEn_e10 : NameFile.seg 38122 1000000000 269437 0 areaEnE1 = some (996312979, []) :=
  NameFile.seg_trans rd_areaEn_e9 rd_areaEnE10 (by decide)

theorem wf_areaEn : (NameFile.check 1000000000 areaEn).isSome = true := NameFile.check_parts rd_areaEn rd_areaEn_v7 rd_areaEnN rd_areaEn_e10 (by decide)

end Verif.Data
