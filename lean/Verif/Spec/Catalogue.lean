import Verif.Num

/-! # What the catalogues are: a table independent of the model -/

namespace RT

/-- What is expected of a lens: its name, whether its focal length, computed from the radii, thicknesses and glasses of the data sheet, differs by
more than 1 % from that of the data sheet; whether its back focal length does; whether its thickness at the edge differs by more than 5 %; and
whether its focal length differs by more than 10 %. -/
structure CatRow where
  name : String
  focal : Bool
  back : Bool
  edge : Bool
  far : Bool

/-- The lenses, in the order of the files (part 1). -/
def catalogueTable1 : List CatRow := [
  ⟨"ACN254_100_A", false, false, false, false⟩,
  ⟨"ACN254_075_A", false, false, false, false⟩,
  ⟨"ACN254_050_A", false, false, false, false⟩,
  ⟨"ACN254_040_A", false, false, false, false⟩,
  ⟨"AC254_030_A", false, false, false, false⟩,
  ⟨"AC254_035_A", false, false, false, false⟩,
  ⟨"AC254_040_A", false, false, false, false⟩,
  ⟨"AC254_045_A", false, false, false, false⟩,
  ⟨"AC254_050_A", false, false, false, false⟩,
  ⟨"AC254_060_A", false, false, false, false⟩,
  ⟨"AC254_075_A", false, false, false, false⟩,
  ⟨"AC254_080_A", false, false, false, false⟩,
  ⟨"AC254_100_A", false, false, false, false⟩,
  ⟨"AC254_125_A", false, false, false, false⟩,
  ⟨"AC254_150_A", false, false, false, false⟩,
  ⟨"AC254_200_A", false, false, false, false⟩,
  ⟨"AC254_250_A", false, false, false, false⟩,
  ⟨"AC254_300_A", false, false, false, false⟩,
  ⟨"AC254_400_A", false, false, false, false⟩,
  ⟨"AC254_500_A", false, false, false, false⟩,
  ⟨"AC254_050_B", false, false, false, false⟩,
  ⟨"AC508_075_B", false, false, false, false⟩,
  ⟨"AC508_080_B", false, false, false, false⟩,
  ⟨"AC508_100_B", false, false, false, false⟩,
  ⟨"AC508_150_B", false, false, false, false⟩,
  ⟨"AC508_200_B", false, false, false, false⟩,
  ⟨"AC508_250_B", false, false, false, false⟩,
  ⟨"AC508_300_B", false, false, false, false⟩,
  ⟨"AC508_400_B", false, false, false, false⟩,
  ⟨"AC508_500_B", false, false, false, false⟩,
  ⟨"AC508_750_B", false, false, false, false⟩,
  ⟨"AC508_1000_B", false, false, false, false⟩,
  ⟨"LA1608_A", false, false, false, false⟩,
  ⟨"LA1134_A", false, false, false, false⟩,
  ⟨"LA1131_A", false, false, false, false⟩,
  ⟨"LA1422_A", false, false, false, false⟩,
  ⟨"LA1805_A", false, false, false, false⟩,
  ⟨"LA1274_A", false, false, false, false⟩,
  ⟨"AC020_004_A", false, true, false, false⟩,
  ⟨"AC050_008_A", true, true, false, false⟩,
  ⟨"AC050_010_A", false, false, false, false⟩,
  ⟨"AC050_015_A", false, false, false, false⟩,
  ⟨"AC060_010_A", false, false, false, false⟩,
  ⟨"AC064_013_A", false, false, false, false⟩,
  ⟨"AC064_015_A", false, false, false, false⟩,
  ⟨"AC080_010_A", true, false, false, false⟩,
  ⟨"AC080_016_A", false, false, false, false⟩,
  ⟨"AC080_020_A", false, false, false, false⟩,
  ⟨"AC080_030_A", false, false, false, false⟩,
  ⟨"AC127_019_A", false, false, false, false⟩,
  ⟨"AC127_025_A", false, false, false, false⟩,
  ⟨"AC127_030_A", false, false, false, false⟩,
  ⟨"AC127_050_A", false, false, false, false⟩,
  ⟨"AC127_075_A", false, false, false, false⟩,
  ⟨"AC254_030_A", false, true, false, false⟩,
  ⟨"AC254_035_A", false, false, false, false⟩,
  ⟨"AC254_040_A", false, false, false, false⟩,
  ⟨"AC254_045_A", false, false, false, false⟩,
  ⟨"AC254_050_A", false, false, false, false⟩,
  ⟨"AC300_050_A", false, false, false, false⟩]

/-- The lenses, in the order of the files (part 2). -/
def catalogueTable2 : List CatRow := [
  ⟨"AC300_080_A", false, false, false, false⟩,
  ⟨"AC300_100_A", false, false, false, false⟩,
  ⟨"AC508_075_A", false, false, false, false⟩,
  ⟨"AC508_080_A", false, false, false, false⟩,
  ⟨"AC508_100_A", false, false, false, false⟩,
  ⟨"AC508_150_A", false, false, false, false⟩,
  ⟨"AC508_180_Ag", false, false, false, false⟩,
  ⟨"ACN127_020_A", false, false, false, false⟩,
  ⟨"ACN127_025_A", false, false, false, false⟩,
  ⟨"ACN127_030_A", false, false, false, false⟩,
  ⟨"ACN127_050_A", false, false, false, false⟩,
  ⟨"ACN254_040_A", false, false, false, false⟩,
  ⟨"ACN254_050_A", false, false, false, false⟩,
  ⟨"ACN254_075_A", false, false, false, false⟩,
  ⟨"ACN254_100_A", false, false, false, false⟩,
  ⟨"ACT508_200_Ag", false, false, false, false⟩,
  ⟨"ACT508_250_A", false, false, false, false⟩,
  ⟨"ACT508_300_A", false, false, false, false⟩,
  ⟨"ACT508_400_A", false, false, false, false⟩,
  ⟨"ACT508_500_A", false, false, false, false⟩,
  ⟨"ACT508_750_A", false, false, false, false⟩,
  ⟨"ACT508_1000_A", false, false, false, false⟩,
  ⟨"AC127_019_AB", false, false, false, false⟩,
  ⟨"AC127_025_AB", false, false, false, false⟩,
  ⟨"AC127_030_AB", false, false, false, false⟩,
  ⟨"AC127_050_AB", false, false, false, false⟩,
  ⟨"AC127_075_AB", false, false, false, false⟩,
  ⟨"AC254_030_AB", false, false, false, false⟩,
  ⟨"AC254_050_AB", true, true, false, false⟩,
  ⟨"AC254_075_AB", true, true, false, true⟩,
  ⟨"AC254_100_AB", false, false, false, false⟩,
  ⟨"AC254_150_AB", false, false, false, false⟩,
  ⟨"AC254_200_AB", false, false, false, false⟩,
  ⟨"AC508_080_AB", true, true, false, false⟩,
  ⟨"AC508_180_AB", true, true, false, false⟩,
  ⟨"AC508_300_AB", true, true, false, false⟩,
  ⟨"AC508_400_AB", false, false, false, false⟩,
  ⟨"AC508_500_AB", false, false, false, false⟩,
  ⟨"AC508_600_AB", false, false, false, false⟩,
  ⟨"AC020_004_B", false, false, false, false⟩,
  ⟨"AC050_008_B", false, false, false, false⟩,
  ⟨"AC050_010_B", false, true, false, false⟩,
  ⟨"AC050_015_B", false, false, false, false⟩,
  ⟨"AC060_010_B", false, false, true, false⟩,
  ⟨"AC064_013_B", false, false, false, false⟩,
  ⟨"AC064_015_B", false, false, false, false⟩,
  ⟨"AC080_010_B", false, false, false, false⟩,
  ⟨"AC080_016_B", false, false, false, false⟩,
  ⟨"AC080_020_B", false, false, false, false⟩,
  ⟨"AC080_030_B", true, true, false, true⟩,
  ⟨"ACN127_020_B", false, false, false, false⟩,
  ⟨"ACN127_025_B", false, false, false, false⟩,
  ⟨"ACN127_030_B", false, false, false, false⟩,
  ⟨"ACN127_050_B", false, false, false, false⟩,
  ⟨"AC127_019_B", false, false, false, false⟩,
  ⟨"AC127_025_B", false, false, false, false⟩,
  ⟨"AC127_030_B", false, false, false, false⟩,
  ⟨"AC127_050_B", false, false, false, false⟩,
  ⟨"AC127_075_B", false, false, false, false⟩,
  ⟨"ACN254_040_B", false, false, false, false⟩]

/-- The lenses, in the order of the files (part 3). -/
def catalogueTable3 : List CatRow := [
  ⟨"ACN254_050_B", false, false, false, false⟩,
  ⟨"ACN254_075_B", false, false, false, false⟩,
  ⟨"ACN254_100_B", false, false, false, false⟩,
  ⟨"AC254_030_B", true, false, false, false⟩,
  ⟨"AC254_035_B", false, false, false, false⟩,
  ⟨"AC254_040_B", false, false, false, false⟩,
  ⟨"AC254_045_B", false, false, false, false⟩,
  ⟨"AC254_050_B", false, false, false, false⟩,
  ⟨"AC254_060_B", false, false, false, false⟩,
  ⟨"AC254_075_B", false, false, false, false⟩,
  ⟨"AC254_080_B", false, false, false, false⟩,
  ⟨"AC254_100_B", false, false, false, false⟩,
  ⟨"AC254_125_B", false, false, false, false⟩,
  ⟨"AC254_150_B", false, false, false, false⟩,
  ⟨"AC254_200_B", false, false, false, false⟩,
  ⟨"AC254_250_B", false, false, false, false⟩,
  ⟨"AC254_300_B", false, false, false, false⟩,
  ⟨"AC254_400_B", false, false, false, false⟩,
  ⟨"AC254_500_B", false, false, false, false⟩,
  ⟨"AC300_050_B", false, false, false, false⟩,
  ⟨"AC300_080_B", false, false, false, false⟩,
  ⟨"AC300_100_B", false, false, false, false⟩,
  ⟨"AC508_075_B", true, false, false, false⟩,
  ⟨"AC508_080_B", false, false, false, false⟩,
  ⟨"AC508_100_B", false, false, false, false⟩,
  ⟨"AC508_150_B", false, false, false, false⟩,
  ⟨"ACT508_200_B", false, false, false, false⟩,
  ⟨"ACT508_250_B", false, false, false, false⟩,
  ⟨"ACT508_300_B", false, false, false, false⟩,
  ⟨"ACT508_400_B", true, true, false, true⟩,
  ⟨"ACT508_500_B", true, true, false, true⟩,
  ⟨"ACT508_750_B", false, false, false, false⟩,
  ⟨"ACT508_1000_B", true, true, false, true⟩,
  ⟨"AC020_004_C", true, true, false, false⟩,
  ⟨"AC050_008_C", true, true, false, true⟩,
  ⟨"AC050_010_C", true, true, false, true⟩,
  ⟨"AC050_015_C", true, true, false, true⟩,
  ⟨"AC060_010_C", true, true, false, true⟩,
  ⟨"AC064_013_C", true, true, false, true⟩,
  ⟨"AC064_015_C", true, true, false, true⟩,
  ⟨"AC080_010_C", true, true, false, false⟩,
  ⟨"AC080_016_C", true, true, false, true⟩,
  ⟨"AC080_020_C", true, true, false, true⟩,
  ⟨"AC080_030_C", true, true, false, false⟩,
  ⟨"AC127_019_C", true, true, false, true⟩,
  ⟨"AC127_025_C", true, true, false, true⟩,
  ⟨"AC127_030_C", true, true, false, true⟩,
  ⟨"AC127_050_C", true, true, false, true⟩,
  ⟨"AC127_075_C", true, true, false, true⟩,
  ⟨"AC254_030_C", true, true, false, true⟩,
  ⟨"AC254_035_C", true, true, false, true⟩,
  ⟨"AC254_040_C", true, true, false, true⟩,
  ⟨"AC254_045_C", true, true, false, true⟩,
  ⟨"AC254_050_C", true, true, false, true⟩,
  ⟨"AC254_060_C", true, true, false, true⟩,
  ⟨"AC254_075_C", true, true, false, true⟩,
  ⟨"AC254_100_C", true, true, false, true⟩,
  ⟨"AC254_125_C", true, true, false, true⟩,
  ⟨"AC254_150_C", true, true, false, true⟩,
  ⟨"AC254_200_C", true, true, false, true⟩]

/-- The lenses, in the order of the files (part 4). -/
def catalogueTable4 : List CatRow := [
  ⟨"AC254_250_C", true, true, false, true⟩,
  ⟨"AC254_300_C", true, true, false, true⟩,
  ⟨"AC254_400_C", true, true, false, true⟩,
  ⟨"AC254_500_C", true, true, false, true⟩,
  ⟨"AC300_050_C", true, true, false, true⟩,
  ⟨"AC300_080_C", true, true, false, true⟩,
  ⟨"AC300_100_C", true, true, false, true⟩,
  ⟨"AC508_075_C", true, true, false, true⟩,
  ⟨"AC508_080_C", true, true, false, true⟩,
  ⟨"AC508_100_C", true, true, false, true⟩,
  ⟨"AC508_150_C", true, true, false, true⟩,
  ⟨"AC508_200_C", true, true, false, true⟩,
  ⟨"ACT508_250_C", true, true, false, false⟩,
  ⟨"ACT508_300_C", true, true, false, false⟩,
  ⟨"ACT508_400_C", true, true, false, false⟩,
  ⟨"AC508_500_C", true, true, false, true⟩,
  ⟨"AC508_750_C", true, true, false, true⟩,
  ⟨"AC508_1000_C", true, true, false, true⟩,
  ⟨"AC050_008_A_ML", true, true, false, false⟩,
  ⟨"AC050_010_A_ML", false, false, false, false⟩,
  ⟨"AC050_015_A_ML", false, false, false, false⟩,
  ⟨"AC060_010_A_ML", false, false, false, false⟩,
  ⟨"AC064_013_A_ML", false, false, false, false⟩,
  ⟨"AC064_015_A_ML", false, false, false, false⟩,
  ⟨"AC080_010_A_ML", true, false, false, false⟩,
  ⟨"AC080_016_A_ML", false, false, false, false⟩,
  ⟨"AC080_020_A_ML", false, false, false, false⟩,
  ⟨"AC080_030_A_ML", false, false, false, false⟩,
  ⟨"AC127_019_A_ML", false, false, false, false⟩,
  ⟨"AC127_025_A_ML", false, false, false, false⟩,
  ⟨"AC127_030_A_ML", false, false, false, false⟩,
  ⟨"AC127_050_A_ML", false, false, false, false⟩,
  ⟨"AC127_075_A_ML", false, false, false, false⟩,
  ⟨"AC254_030_A_ML", false, true, false, false⟩,
  ⟨"AC254_035_A_ML", false, false, false, false⟩,
  ⟨"AC254_040_A_ML", false, false, false, false⟩,
  ⟨"AC254_045_A_ML", false, false, false, false⟩,
  ⟨"AC254_050_A_ML", false, false, false, false⟩,
  ⟨"AC254_075_A_ML", false, false, false, false⟩,
  ⟨"AC254_080_A_ML", false, false, false, false⟩,
  ⟨"AC254_100_A_ML", false, false, false, false⟩,
  ⟨"AC254_125_A_ML", false, false, true, false⟩,
  ⟨"AC254_150_A_ML", false, false, false, false⟩,
  ⟨"AC254_200_A_ML", false, false, false, false⟩,
  ⟨"AC254_250_A_ML", false, false, false, false⟩,
  ⟨"AC254_300_A_ML", false, false, false, false⟩,
  ⟨"AC254_400_A_ML", false, false, false, false⟩,
  ⟨"AC254_500_A_ML", false, false, false, false⟩,
  ⟨"AC508_075_A_ML", false, false, false, false⟩,
  ⟨"AC508_080_A_ML", false, false, false, false⟩,
  ⟨"AC508_100_A_ML", false, false, false, false⟩,
  ⟨"AC508_150_A_ML", false, false, false, false⟩,
  ⟨"AC508_180_A_MLd", false, false, false, false⟩,
  ⟨"ACT508_200_A_MLd", false, false, false, false⟩,
  ⟨"ACT508_250_A_ML", false, false, false, false⟩,
  ⟨"ACT508_300_A_ML", false, false, false, false⟩,
  ⟨"ACT508_400_A_ML", false, false, false, false⟩,
  ⟨"ACT508_500_A_ML", false, false, false, false⟩,
  ⟨"ACT508_750_A_ML", false, false, false, false⟩,
  ⟨"ACT508_1000_A_ML", false, false, false, false⟩]

/-- The lenses, in the order of the files (part 5). -/
def catalogueTable5 : List CatRow := [
  ⟨"AC127_019_AB_ML", false, false, false, false⟩,
  ⟨"AC127_025_AB_ML", false, false, false, false⟩,
  ⟨"AC127_030_AB_ML", false, false, false, false⟩,
  ⟨"AC127_050_AB_ML", true, true, false, true⟩,
  ⟨"AC127_075_AB_ML", true, true, false, true⟩,
  ⟨"AC254_030_AB_ML", false, false, false, false⟩,
  ⟨"AC254_050_AB_ML", true, true, false, false⟩,
  ⟨"AC254_075_AB_ML", true, true, false, true⟩,
  ⟨"AC254_100_AB_ML", false, false, false, false⟩,
  ⟨"AC254_150_AB_ML", false, false, false, false⟩,
  ⟨"AC254_200_AB_ML", false, false, false, false⟩,
  ⟨"AC508_080_AB_ML", true, true, false, false⟩,
  ⟨"AC508_180_AB_ML", true, true, false, false⟩,
  ⟨"AC508_300_AB_ML", true, true, false, false⟩,
  ⟨"AC508_400_AB_ML", false, false, false, false⟩,
  ⟨"AC508_500_AB_ML", false, false, false, false⟩,
  ⟨"AC508_600_AB_ML", false, false, false, false⟩,
  ⟨"AC050_008_B_ML", false, false, false, false⟩,
  ⟨"AC050_010_B_ML", false, true, false, false⟩,
  ⟨"AC050_015_B_ML", false, false, false, false⟩,
  ⟨"AC060_010_B_ML", false, false, true, false⟩,
  ⟨"AC064_013_B_ML", false, false, false, false⟩,
  ⟨"AC064_015_B_ML", false, false, false, false⟩,
  ⟨"AC080_010_B_ML", false, false, false, false⟩,
  ⟨"AC080_016_B_ML", false, false, false, false⟩,
  ⟨"AC080_020_B_ML", false, false, false, false⟩,
  ⟨"AC080_030_B_ML", true, true, false, true⟩,
  ⟨"AC127_019_B_ML", false, false, false, false⟩,
  ⟨"AC127_025_B_ML", false, false, false, false⟩,
  ⟨"AC127_030_B_ML", false, false, false, false⟩,
  ⟨"AC127_050_B_ML", false, false, false, false⟩,
  ⟨"AC127_075_B_ML", false, false, false, false⟩,
  ⟨"AC254_030_B_ML", true, false, false, false⟩,
  ⟨"AC254_035_B_ML", false, false, false, false⟩,
  ⟨"AC254_040_B_ML", false, false, false, false⟩,
  ⟨"AC254_045_B_ML", false, false, false, false⟩,
  ⟨"AC254_050_B_ML", false, false, false, false⟩,
  ⟨"AC254_060_B_ML", false, false, false, false⟩,
  ⟨"AC254_075_B_ML", false, false, false, false⟩,
  ⟨"AC254_080_B_ML", false, false, false, false⟩,
  ⟨"AC254_100_B_ML", false, false, false, false⟩,
  ⟨"AC254_125_B_ML", false, false, false, false⟩,
  ⟨"AC254_150_B_ML", false, false, false, false⟩,
  ⟨"AC254_200_B_ML", false, false, false, false⟩,
  ⟨"AC254_250_B_ML", false, false, false, false⟩,
  ⟨"AC254_300_B_ML", false, false, false, false⟩,
  ⟨"AC254_400_B_ML", false, false, false, false⟩,
  ⟨"AC254_500_B_ML", false, false, false, false⟩,
  ⟨"AC508_075_B_ML", true, false, false, false⟩,
  ⟨"AC508_080_B_ML", false, false, false, false⟩,
  ⟨"AC508_100_B_ML", false, false, false, false⟩,
  ⟨"AC508_150_B_ML", false, false, false, false⟩,
  ⟨"ACT508_200_B_ML", false, false, false, false⟩,
  ⟨"ACT508_250_B_ML", false, false, false, false⟩,
  ⟨"ACT508_300_B_ML", false, false, false, false⟩,
  ⟨"ACT508_400_B_ML", true, true, false, true⟩,
  ⟨"ACT508_500_B_ML", true, true, false, true⟩,
  ⟨"ACT508_750_B_ML", false, false, false, false⟩,
  ⟨"ACT508_1000_B_ML", true, true, false, true⟩,
  ⟨"AC050_008_C_ML", false, false, false, false⟩]

/-- The lenses, in the order of the files (part 6). -/
def catalogueTable6 : List CatRow := [
  ⟨"AC050_010_C_ML", false, false, false, false⟩,
  ⟨"AC050_015_C_ML", true, true, false, false⟩,
  ⟨"AC060_010_C_ML", false, false, false, false⟩,
  ⟨"AC064_013_C_ML", false, false, false, false⟩,
  ⟨"AC064_015_C_ML", false, false, false, false⟩,
  ⟨"AC080_010_C_ML", true, true, false, false⟩,
  ⟨"AC080_016_C_ML", true, false, false, false⟩,
  ⟨"AC080_020_C_ML", true, true, false, false⟩,
  ⟨"AC080_030_C_ML", true, true, false, false⟩,
  ⟨"AC127_019_C_ML", true, true, false, true⟩,
  ⟨"AC127_025_C_ML", false, false, false, false⟩,
  ⟨"AC127_030_C_ML", false, false, false, false⟩,
  ⟨"AC127_050_C_ML", true, true, false, false⟩,
  ⟨"AC127_075_C_ML", true, true, false, false⟩,
  ⟨"AC254_030_C_ML", false, true, false, false⟩,
  ⟨"AC254_035_C_ML", false, true, false, false⟩,
  ⟨"AC254_040_C_ML", false, false, false, false⟩,
  ⟨"AC254_045_C_ML", false, false, false, false⟩,
  ⟨"AC254_050_C_ML", false, false, false, false⟩,
  ⟨"AC254_060_C_ML", true, true, false, false⟩,
  ⟨"AC254_075_C_ML", true, true, false, false⟩,
  ⟨"AC254_100_C_ML", true, true, false, false⟩,
  ⟨"AC254_150_C_ML", true, true, false, false⟩,
  ⟨"AC254_200_C_ML", true, true, false, false⟩,
  ⟨"AC254_250_C_ML", true, true, false, false⟩,
  ⟨"AC254_300_C_ML", true, true, false, false⟩,
  ⟨"AC254_400_C_ML", true, true, false, false⟩,
  ⟨"AC254_500_C_ML", true, true, false, false⟩,
  ⟨"AC508_075_C_ML", false, true, false, false⟩,
  ⟨"AC508_080_C_ML", false, true, false, false⟩,
  ⟨"AC508_100_C_ML", false, false, false, false⟩,
  ⟨"AC508_150_C_ML", true, true, false, false⟩,
  ⟨"AC508_200_C_ML", true, true, false, false⟩,
  ⟨"ACT508_250_C_ML", true, true, false, false⟩,
  ⟨"ACT508_300_C_ML", true, true, false, false⟩,
  ⟨"ACT508_400_C_ML", true, true, false, false⟩,
  ⟨"AC508_500_C_ML", false, false, false, false⟩,
  ⟨"AC508_1000_C_ML", true, false, false, false⟩,
  ⟨"PN_33_921", false, false, false, false⟩,
  ⟨"PN_33_922", false, false, false, false⟩,
  ⟨"PN_88_593", false, false, false, false⟩,
  ⟨"PN_85_877", false, false, false, false⟩]

/-- All the lenses, in the order of the files. -/
def catalogueTable : List CatRow :=
  catalogueTable1 ++ catalogueTable2 ++ catalogueTable3 ++ catalogueTable4 ++ catalogueTable5 ++ catalogueTable6

/-- The names that two classes of the file have. -/
def twiceNamed : List String := [
  "ACN254_100_A", "ACN254_075_A", "ACN254_050_A", "ACN254_040_A", "AC254_030_A", "AC254_035_A", "AC254_040_A", "AC254_045_A",
  "AC254_050_A", "AC254_050_B", "AC508_075_B", "AC508_080_B", "AC508_100_B", "AC508_150_B"]

/-- Those whose two classes have not the same data. -/
def twiceDifferent : List String := [
  "ACN254_100_A", "AC254_030_A", "AC254_050_A", "AC508_075_B", "AC508_080_B", "AC508_100_B", "AC508_150_B"]

end RT
