import Verif.Model.Materials

/-! # The catalogues: `thorlabs.py`, `eo.py`

Every class, in the order of the files, with the arguments its `__init__` gives to `SingletLens` or `AchromatDoubletLens`
(`n1=None`, `n2=None`, `n=None` where materials are given). Left out: `url`. Generated by reading the files. -/

namespace RT

/-- The glasses of a doublet: `n1=..., n2=...`, or `mat1=..., mat2=..., wavelengthRef=...`. -/
inductive CatGlasses where
  | given (n1 n2 : ℚ)
  | glasses (mat1 mat2 : String) (wavelengthRef : ℚ)
  deriving DecidableEq

/-- The arguments of the base class. A radius `none` is `float("+inf")`. -/
inductive CatData where
  | singlet (f fb : ℚ) (R1 R2 : Option ℚ) (tc te diameter : ℚ) (mat : String) (wavelengthRef : ℚ)
  | doublet (fa fb : ℚ) (R1 R2 R3 : Option ℚ) (tc1 tc2 te diameter : ℚ) (glasses : CatGlasses)
  deriving DecidableEq

/-- A class of the catalogues; `takesWavelength` when its `__init__` has an argument `wavelength`. -/
structure CatLens where
  name : String
  label : String
  takesWavelength : Bool
  data : CatData
  deriving DecidableEq

/-- The focal length of the data sheet, `designFocalLength`. -/
def CatLens.design (l : CatLens) : ℚ :=
  match l.data with
  | .singlet f .. => f
  | .doublet fa .. => fa

/-- `thorlabs.py:5` to `thorlabs.py:1328`. -/
def catalogue1 : List CatLens := [
  -- `thorlabs.py:5-33`
  ⟨"ACN254_100_A", "ACN254-100-A", true, .doublet (-100.0) (-103.6) (some (-52.0)) (some 49.9) (some 600.0) 2.0 4.0 7.7 25.4 (.glasses "N_BAK4" "SF5" 0.5876)⟩,
  -- `thorlabs.py:36-64`
  ⟨"ACN254_075_A", "ACN254-075-A", true, .doublet (-75.1) (-78.8) (some (-39.0)) (some 39.2) (some 489.8) 2.0 4.3 8.6 25.4 (.glasses "N_BAK4" "SF5" 0.5876)⟩,
  -- `thorlabs.py:67-96`
  ⟨"ACN254_050_A", "ACN254-050-A", true, .doublet (-50.0) (-53.2) (some (-34.0)) (some 32.5) (some 189.2) 2.0 4.5 9.4 25.4 (.glasses "N_BAF10" "N_SF6HT" 0.5876)⟩,
  -- `thorlabs.py:98-127`
  ⟨"ACN254_040_A", "ACN254-040-A", true, .doublet (-40.1) (-43.6) (some (-27.1)) (some 27.1) (some 189.2) 2.0 5.0 10.6 25.4 (.glasses "N_BAF10" "N_SF11" 0.5876)⟩,
  -- `thorlabs.py:130-170`
  ⟨"AC254_030_A", "AC254-030-A", true, .doublet 30.0 22.2 (some 20.89) (some (-16.7)) (some (-79.8)) 12 2.0 8.8 25.4 (.glasses "N_BAF10" "N_SF6HT" 0.5876)⟩,
  -- `thorlabs.py:172-201`
  ⟨"AC254_035_A", "AC254-035-A", true, .doublet 35.2 27.3 (some 24.0) (some (-19.1)) (some (-102.1)) 12 2.0 9.6 25.4 (.glasses "N_BAF10" "N_SF6HT" 0.5876)⟩,
  -- `thorlabs.py:203-232`
  ⟨"AC254_040_A", "AC254-040-A", true, .doublet 40.1 33.4 (some 23.7) (some (-20.1)) (some (-57.7)) 10 2.5 7.4 25.4 (.glasses "N_BK7" "SF5" 0.5876)⟩,
  -- `thorlabs.py:234-263`
  ⟨"AC254_045_A", "AC254-045-A", true, .doublet 45.0 40.2 (some 31.2) (some (-25.90)) (some (-130.6)) 7 2.0 5.7 25.4 (.glasses "N_BAF10" "N_SF6HT" 0.5876)⟩,
  -- `thorlabs.py:265-294`
  ⟨"AC254_050_A", "AC254-050-A", true, .doublet 50.2 43.4 (some 33.3) (some (-22.28)) (some (-291.07)) 9 2.5 8.7 25.4 (.glasses "N_BAF10" "N_SF10" 0.5876)⟩,
  -- `thorlabs.py:297-326`
  ⟨"AC254_060_A", "AC254-060-A", true, .doublet 60.1 54.3 (some 41.7) (some (-25.9)) (some (-230.7)) 8 2.5 8.2 25.4 (.glasses "E_BAF11" "E_FD10" 0.5876)⟩,
  -- `thorlabs.py:328-357`
  ⟨"AC254_075_A", "AC254-075-A", true, .doublet 74.9 70.3 (some 46.5) (some (-33.9)) (some (-95.5)) 7.0 2.5 6.9 25.4 (.glasses "N_BK7" "SF5" 0.5876)⟩,
  -- `thorlabs.py:359-388`
  ⟨"AC254_080_A", "AC254-080-A", true, .doublet 80.0 75.3 (some 49.6) (some (-35.5)) (some (-101.2)) 7.0 3.0 7.3 25.4 (.glasses "N_BK7" "N_SF5" 0.5876)⟩,
  -- `thorlabs.py:390-419`
  ⟨"AC254_100_A", "AC254-100-A", true, .doublet 100.1 97.1 (some 62.75) (some (-45.71)) (some (-128.23)) 4.0 2.5 4.7 25.4 (.glasses "N_BK7" "SF5" 0.5876)⟩,
  -- `thorlabs.py:421-458`
  ⟨"AC254_125_A", "AC254-125-A", true, .doublet 125.0 122.0 (some 77.63) (some (-55.92)) (some (-160.82)) 4.0 2.83 5.3 25.4 (.glasses "N_BK7" "N_SF5" 0.5876)⟩,
  -- `thorlabs.py:460-489`
  ⟨"AC254_150_A", "AC254-150-A", true, .doublet 150 146.1 (some 91.6) (some (-66.7)) (some (-197.7)) 5.7 2.2 6.6 25.4 (.glasses "N_BK7" "SF5" 0.5876)⟩,
  -- `thorlabs.py:491-520`
  ⟨"AC254_200_A", "AC254-200-A", true, .doublet 200.2 194.0 (some 77.4) (some (-87.6)) (some 291.1) 4.0 2.5 5.7 25.4 (.glasses "N_SSK5" "LAFN7" 0.5876)⟩,
  -- `thorlabs.py:522-551`
  ⟨"AC254_250_A", "AC254-250-A", true, .doublet 250 246.7 (some 137.1) (some (-111.5)) (some (-459.2)) 4.0 2.0 5.2 25.4 (.glasses "N_BK7" "SF2" 0.5876)⟩,
  -- `thorlabs.py:553-582`
  ⟨"AC254_300_A", "AC254-300-A", true, .doublet 300.2 297.0 (some 165.2) (some (-137.1)) (some (-557.4)) 4.0 2.0 5.4 25.4 (.glasses "N_BK7" "SF2" 0.5876)⟩,
  -- `thorlabs.py:584-613`
  ⟨"AC254_400_A", "AC254-400-A", true, .doublet 399.3 396.0 (some 219.8) (some (-181.6)) (some (-738.5)) 4.0 2.0 5.5 25.4 (.glasses "N_BK7" "SF2" 0.5876)⟩,
  -- `thorlabs.py:615-644`
  ⟨"AC254_500_A", "AC254-500-A", true, .doublet 502.5 499.9 (some 337.3) (some (-186.8)) (some (-557.4)) 4.0 2.0 5.6 25.4 (.glasses "N_BK7" "SF2" 0.5876)⟩,
  -- `thorlabs.py:646-675`
  ⟨"AC254_050_B", "AC254-050-B", true, .doublet 50.0 45.0 (some 33.55) (some (-27.05)) (some (-125.60)) 7.5 1.8 6.2 25.4 (.glasses "N_LAK22" "N_SF6HT" 0.5876)⟩,
  -- `thorlabs.py:678-707`
  ⟨"AC508_075_B", "AC508-075-B", true, .doublet 75.0 65.7 (some 51.8) (some (-93.11)) (some (-291.07)) 12.0 5.0 9.2 50.8 (.glasses "N_LAK22" "N_SF6HT" 0.855)⟩,
  -- `thorlabs.py:709-738`
  ⟨"AC508_080_B", "AC508-080-B", true, .doublet 80.0 69.5 (some 51.8) (some (-44.6)) (some (-312.6)) 16.0 2.0 10.3 50.8 (.glasses "N_BAF10" "N_SF6HT" 0.855)⟩,
  -- `thorlabs.py:740-769`
  ⟨"AC508_100_B", "AC508-100-B", true, .doublet 100.0 91.5 (some 65.8) (some (-56.0)) (some (-280.6)) 13.0 2.0 8.7 50.8 (.glasses "N_LAK22" "N_SF6HT" 0.855)⟩,
  -- `thorlabs.py:771-800`
  ⟨"AC508_150_B", "AC508-150-B", true, .doublet 150.0 145.3 (some 112.2) (some (-95.9)) (some (-325.1)) 8.2 5.0 9.3 50.8 (.glasses "N_LAK22" "N_SF6HT" 0.855)⟩,
  -- `thorlabs.py:802-831`
  ⟨"AC508_200_B", "AC508-200-B", true, .doublet 200.0 193.2 (some 134.0) (some (-109.2)) (some (-515.2)) 8.2 5.0 10.1 50.8 (.glasses "N_LAK22" "N_SF6HT" 0.855)⟩,
  -- `thorlabs.py:833-862`
  ⟨"AC508_250_B", "AC508-250-B", true, .doublet 250.0 243.2 (some 121.2) (some (-146.1)) (some 1235.9) 6.6 2.6 6.8 50.8 (.glasses "N_BAF10" "N_SF6HT" 0.855)⟩,
  -- `thorlabs.py:864-893`
  ⟨"AC508_300_B", "AC508-300-B", true, .doublet 300.0 295.1 (some 201.8) (some (-161.5)) (some (-760.0)) 6.6 2.6 7.2 50.8 (.glasses "N_LAK22" "N_SF6HT" 0.855)⟩,
  -- `thorlabs.py:895-924`
  ⟨"AC508_400_B", "AC508-400-B", true, .doublet 400.0 393.6 (some 280.6) (some (-208.0)) (some (-859.0)) 4.5 2.6 5.6 50.8 (.glasses "N_LAK22" "N_SF6HT" 0.855)⟩,
  -- `thorlabs.py:926-955`
  ⟨"AC508_500_B", "AC508-500-B", true, .doublet 500.0 497.0 (some 346.7) (some (-259.4)) (some (-1132.4)) 4.5 2.6 5.9 50.8 (.glasses "N_LAK22" "N_SF6HT" 0.855)⟩,
  -- `thorlabs.py:957-986`
  ⟨"AC508_750_B", "AC508-750-B", true, .doublet 750.0 745.0 (some 376.8) (some (-291.1)) (some 2910.0) 4.2 2.5 6.0 50.8 (.glasses "N_BAF10" "N_SF10" 0.855)⟩,
  -- `thorlabs.py:988-1017`
  ⟨"AC508_1000_B", "AC508-1000-B", true, .doublet 1000.0 993.0 (some 494.3) (some (-398.1)) (some 3440.0) 4.2 2.8 6.4 50.8 (.glasses "N_BAF10" "N_SF10" 0.855)⟩,
  -- `thorlabs.py:1019-1043`
  ⟨"LA1608_A", "LA1608_A", true, .singlet 75.0 72.0 (some 38.6) none 4.1 2.0 25.4 "N_BK7" 0.5876⟩,
  -- `thorlabs.py:1045-1069`
  ⟨"LA1134_A", "LA1134_A", true, .singlet 60.0 56.7 (some 30.9) none 4.7 2.0 25.4 "N_BK7" 0.5876⟩,
  -- `thorlabs.py:1071-1095`
  ⟨"LA1131_A", "LA1131_A", true, .singlet 50.0 46.3 (some 25.8) none 5.3 2.0 25.4 "N_BK7" 0.5876⟩,
  -- `thorlabs.py:1097-1121`
  ⟨"LA1422_A", "LA1422_A", true, .singlet 40.0 35.7 (some 20.6) none 6.4 2.0 25.4 "N_BK7" 0.5876⟩,
  -- `thorlabs.py:1123-1147`
  ⟨"LA1805_A", "LA1805_A", true, .singlet 30.0 24.2 (some 15.5) none 8.6 2.0 25.4 "N_BK7" 0.5876⟩,
  -- `thorlabs.py:1149-1173`
  ⟨"LA1274_A", "LA1274_A", true, .singlet 40.0 34.0 (some 20.6) none 9.0 2.5 30.0 "N_BK7" 0.5876⟩,
  -- `thorlabs.py:1176-1181`
  ⟨"AC020_004_A", "AC020-004-A", true, .doublet 4.0 2.92 (some 2.38) (some (-2.18)) (some (-7.87)) 1.11 1.3 2.13 2.0 (.glasses "N_SK16" "N_LASF9" 0.5876)⟩,
  -- `thorlabs.py:1183-1188`
  ⟨"AC050_008_A", "AC050-008-A", true, .doublet 7.5 5.2 (some 5.3) (some (-3.9)) (some (-17.1)) 2.8 1.7 3.7 5.0 (.glasses "N_BAF10" "N_SF6HT" 0.5876)⟩,
  -- `thorlabs.py:1190-1195`
  ⟨"AC050_010_A", "AC050-010-A", true, .doublet 10.0 7.9 (some 6.6) (some (-4.3)) (some (-15.4)) 2.5 1.9 3.7 5.0 (.glasses "N_BAK4" "SF5" 0.5876)⟩,
  -- `thorlabs.py:1197-1202`
  ⟨"AC050_015_A", "AC050-015-A", true, .doublet 15.0 13.6 (some 12.5) (some (-5.3)) (some (-12.1)) 2.7 2.1 4.3 5.0 (.glasses "N_BK7" "SF2" 0.5876)⟩,
  -- `thorlabs.py:1204-1209`
  ⟨"AC060_010_A", "AC060-010-A", true, .doublet 10.0 7.9 (some 6.2) (some (-4.6)) (some (-19.6)) 2.5 1.5 3.0 6.0 (.glasses "N_BAK4" "SF5" 0.5876)⟩,
  -- `thorlabs.py:1211-1216`
  ⟨"AC064_013_A", "AC064-013-A", true, .doublet 12.7 10.3 (some 7.1) (some (-5.9)) (some (-40.4)) 2.5 1.5 3.1 6.35 (.glasses "N_BAK4" "SF5" 0.5876)⟩,
  -- `thorlabs.py:1218-1223`
  ⟨"AC064_015_A", "AC064-015-A", true, .doublet 15.0 13.0 (some 8.8) (some (-6.6)) (some (-21.7)) 2.5 1.5 3.2 6.35 (.glasses "N_BK7" "SF2" 0.5876)⟩,
  -- `thorlabs.py:1225-1230`
  ⟨"AC080_010_A", "AC080-010-A", true, .doublet 10.0 6.7 (some 7.1) (some (-5.3)) (some (-22.7)) 4.5 2.0 4.9 8.0 (.glasses "N_BAF10" "N_SF6HT" 0.5876)⟩,
  -- `thorlabs.py:1232-1237`
  ⟨"AC080_016_A", "AC080-016-A", true, .doublet 16.0 13.9 (some 11.0) (some (-9.2)) (some (-46.8)) 2.5 1.5 3.1 8.0 (.glasses "N_BAF10" "N_SF6HT" 0.5876)⟩,
  -- `thorlabs.py:1239-1244`
  ⟨"AC080_020_A", "AC080-020-A", true, .doublet 20.0 17.8 (some 11.1) (some (-9.2)) (some (-34.8)) 2.5 1.5 3.0 8.0 (.glasses "N_BK7" "SF2" 0.5876)⟩,
  -- `thorlabs.py:1246-1251`
  ⟨"AC080_030_A", "AC080-030-A", true, .doublet 30.0 27.8 (some 16.0) (some (-13.5)) (some (-59.4)) 2.5 1.5 3.4 8.0 (.glasses "N_BK7" "N_SF2" 0.5876)⟩,
  -- `thorlabs.py:1253-1258`
  ⟨"AC127_019_A", "AC127-019-A", true, .doublet 19.0 15.7 (some 12.9) (some (-11.0)) (some (-59.3)) 4.5 1.5 4.0 12.7 (.glasses "N_BAF10" "N_SF6HT" 0.5876)⟩,
  -- `thorlabs.py:1260-1265`
  ⟨"AC127_025_A", "AC127-025-A", true, .doublet 25.0 21.5 (some 18.8) (some (-10.6)) (some (-68.1)) 5.0 2.0 5.6 12.7 (.glasses "N_BAF10" "N_SF10" 0.5876)⟩,
  -- `thorlabs.py:1267-1272`
  ⟨"AC127_030_A", "AC127-030-A", true, .doublet 30.0 27.5 (some 17.9) (some (-13.5)) (some (-44.2)) 3.5 1.5 3.4 12.7 (.glasses "N_BK7" "SF2" 0.5876)⟩,
  -- `thorlabs.py:1274-1279`
  ⟨"AC127_050_A", "AC127-050-A", true, .doublet 50.0 47.2 (some 27.4) (some (-22.5)) (some (-91.8)) 3.5 1.5 4.0 12.7 (.glasses "N_BK7" "SF2" 0.5876)⟩,
  -- `thorlabs.py:1281-1286`
  ⟨"AC127_075_A", "AC127-075-A", true, .doublet 75.0 72.9 (some 41.3) (some (-34.0)) (some (-137.1)) 2.5 1.5 3.4 12.7 (.glasses "N_BK7" "SF2" 0.5876)⟩,
  -- `thorlabs.py:1288-1293`
  ⟨"AC254_030_A", "AC254-030-A", true, .doublet 30.0 22.9 (some 20.9) (some (-16.7)) (some (-79.8)) 12.0 2.0 8.8 25.4 (.glasses "N_BAF10" "N_SF6HT" 0.5876)⟩,
  -- `thorlabs.py:1295-1300`
  ⟨"AC254_035_A", "AC254-035-A", true, .doublet 35.2 27.3 (some 24.0) (some (-19.1)) (some (-102.1)) 12.0 2.0 9.6 25.4 (.glasses "N_BAF10" "N_SF6HT" 0.5876)⟩,
  -- `thorlabs.py:1302-1307`
  ⟨"AC254_040_A", "AC254-040-A", true, .doublet 40.1 33.4 (some 23.7) (some (-20.1)) (some (-57.7)) 10.0 2.5 7.4 25.4 (.glasses "N_BK7" "SF5" 0.5876)⟩,
  -- `thorlabs.py:1309-1314`
  ⟨"AC254_045_A", "AC254-045-A", true, .doublet 45.0 40.2 (some 31.2) (some (-25.9)) (some (-130.6)) 7.0 2.0 5.7 25.4 (.glasses "N_BAF10" "N_SF6HT" 0.5876)⟩,
  -- `thorlabs.py:1316-1321`
  ⟨"AC254_050_A", "AC254-050-A", true, .doublet 50.2 43.4 (some 33.3) (some (-22.3)) (some (-291.1)) 9.0 2.5 8.7 25.4 (.glasses "N_BAF10" "N_SF10" 0.5876)⟩,
  -- `thorlabs.py:1323-1328`
  ⟨"AC300_050_A", "AC300-050-A", true, .doublet 50.0 44.3 (some 34.0) (some (-29.4)) (some (-161.5)) 8.5 2.0 6.3 30.0 (.glasses "N_BAF10" "N_SF6HT" 0.5876)⟩]

/-- `thorlabs.py:1330` to `thorlabs.py:1748`. -/
def catalogue2 : List CatLens := [
  -- `thorlabs.py:1330-1335`
  ⟨"AC300_080_A", "AC300-080-A", true, .doublet 80.0 74.3 (some 56.0) (some (-44.2)) (some (-219.8)) 8.5 2.0 7.9 30.0 (.glasses "N_BAF10" "N_SF6HT" 0.5876)⟩,
  -- `thorlabs.py:1337-1342`
  ⟨"AC300_100_A", "AC300-100-A", true, .doublet 100.0 96.4 (some 70.0) (some (-57.0)) (some (-284.4)) 5.0 2.0 5.0 30.0 (.glasses "N_BAF10" "N_SF6HT" 0.5876)⟩,
  -- `thorlabs.py:1344-1349`
  ⟨"AC508_075_A", "AC508-075-A", true, .doublet 74.9 61.8 (some 50.8) (some (-41.7)) (some (-247.7)) 20.0 3.0 14.9 50.8 (.glasses "E_BAF11" "N_SF11" 0.5876)⟩,
  -- `thorlabs.py:1351-1356`
  ⟨"AC508_080_A", "AC508-080-A", true, .doublet 80.0 69.9 (some 54.9) (some (-46.4)) (some (-247.2)) 16.0 2.0 10.5 50.8 (.glasses "N_BAF10" "N_SF6HT" 0.5876)⟩,
  -- `thorlabs.py:1358-1363`
  ⟨"AC508_100_A", "AC508-100-A", true, .doublet 100.0 89.0 (some 71.1) (some (-44.2)) (some (-363.1)) 16.0 4.0 14.4 50.8 (.glasses "N_BAF10" "N_SF10" 0.5876)⟩,
  -- `thorlabs.py:1365-1370`
  ⟨"AC508_150_A", "AC508-150-A", true, .doublet 150.0 140.4 (some 83.2) (some (-72.1)) (some (-247.7)) 12.0 3.0 9.7 50.8 (.glasses "N_BK7" "SF5" 0.5876)⟩,
  -- `thorlabs.py:1372-1377`
  ⟨"AC508_180_Ag", "AC508-180-Ag", true, .doublet 180.0 172.7 (some 109.7) (some (-80.7)) (some (-238.5)) 12.0 2.0 9.4 50.8 (.glasses "N_BK7" "N_SF5" 0.5876)⟩,
  -- `thorlabs.py:1379-1384`
  ⟨"ACN127_020_A", "ACN127-020-A", true, .doublet (-20.0) (-22.3) (some (-13.5)) (some 14.3) (some 87.9) 1.5 3.0 6.3 12.7 (.glasses "N_BAF10" "N_SF6HT" 0.5876)⟩,
  -- `thorlabs.py:1386-1391`
  ⟨"ACN127_025_A", "ACN127-025-A", true, .doublet (-25.0) (-27.0) (some (-16.9)) (some 16.5) (some 97.7) 1.5 2.5 5.4 12.7 (.glasses "N_BAF10" "N_SF6HT" 0.5876)⟩,
  -- `thorlabs.py:1393-1398`
  ⟨"ACN127_030_A", "ACN127-030-A", true, .doublet (-30.0) (-32.2) (some (-16.2)) (some 16.5) (some 154.2) 1.5 2.3 5.2 12.7 (.glasses "N_BAK4" "SF5" 0.5876)⟩,
  -- `thorlabs.py:1400-1405`
  ⟨"ACN127_050_A", "ACN127-050-A", true, .doublet (-50.0) (-52.3) (some (-25.6)) (some 25.6) (some 372.7) 1.5 2.2 4.6 12.7 (.glasses "N_BAK4" "SF5" 0.5876)⟩,
  -- `thorlabs.py:1407-1412`
  ⟨"ACN254_040_A", "ACN254-040-A", true, .doublet (-40.1) (-43.6) (some (-27.1)) (some 27.1) (some 189.2) 2.0 5.0 10.6 25.4 (.glasses "N_BAF10" "N_SF11" 0.5876)⟩,
  -- `thorlabs.py:1414-1419`
  ⟨"ACN254_050_A", "ACN254-050-A", true, .doublet (-50.0) (-53.2) (some (-34.0)) (some 32.5) (some 189.2) 2.0 4.5 9.4 25.4 (.glasses "N_BAF10" "N_SF6HT" 0.5876)⟩,
  -- `thorlabs.py:1421-1426`
  ⟨"ACN254_075_A", "ACN254-075-A", true, .doublet (-75.1) (-78.8) (some (-39.0)) (some 39.2) (some 489.8) 2.0 4.3 8.6 25.4 (.glasses "N_BAK4" "SF5" 0.5876)⟩,
  -- `thorlabs.py:1428-1433`
  ⟨"ACN254_100_A", "ACN254-100-A", true, .doublet (-100.1) (-103.6) (some (-52.0)) (some 49.9) (some 600.0) 2.0 4.0 7.7 25.4 (.glasses "N_BAK4" "SF5" 0.5876)⟩,
  -- `thorlabs.py:1435-1440`
  ⟨"ACT508_200_Ag", "ACT508-200-Ag", true, .doublet 200.0 190.6 (some 106.2) (some (-92.1)) (some (-409.4)) 10.6 6.0 12.8 50.8 (.glasses "N_BK7" "N_SF2" 0.5876)⟩,
  -- `thorlabs.py:1442-1447`
  ⟨"ACT508_250_A", "ACT508-250-A", true, .doublet 250.0 241.4 (some 131.2) (some (-116.0)) (some (-538.1)) 9.3 6.0 12.3 50.8 (.glasses "N_BK7" "N_SF2" 0.5876)⟩,
  -- `thorlabs.py:1449-1454`
  ⟨"ACT508_300_A", "ACT508-300-A", true, .doublet 300.0 291.3 (some 153.7) (some (-139.9)) (some (-706.8)) 8.4 7.0 12.4 50.8 (.glasses "N_BK7" "N_SF2" 0.5876)⟩,
  -- `thorlabs.py:1456-1461`
  ⟨"ACT508_400_A", "ACT508-400-A", true, .doublet 400.0 394.6 (some 292.3) (some (-148.9)) (some (-398.5)) 8.0 8.0 14.1 50.8 (.glasses "N_BK7" "N_SF2" 0.5876)⟩,
  -- `thorlabs.py:1463-1468`
  ⟨"ACT508_500_A", "ACT508-500-A", true, .doublet 500.0 496.3 (some 382.5) (some (-182.1)) (some (-471.2)) 6.0 6.0 10.5 50.8 (.glasses "N_BK7" "N_SF2" 0.5876)⟩,
  -- `thorlabs.py:1470-1475`
  ⟨"ACT508_750_A", "ACT508-750-A", true, .doublet 750.0 743.9 (some 398.6) (some (-343.7)) (some (-1544.5)) 6.0 6.0 11.0 50.8 (.glasses "N_BK7" "N_SF2" 0.5876)⟩,
  -- `thorlabs.py:1477-1482`
  ⟨"ACT508_1000_A", "ACT508-1000-A", true, .doublet 1000.0 996.4 (some 757.9) (some (-364.7)) (some (-954.2)) 6.0 6.0 11.3 50.8 (.glasses "N_BK7" "N_SF2" 0.5876)⟩,
  -- `thorlabs.py:1484-1489`
  ⟨"AC127_019_AB", "AC127-019-AB", true, .doublet 19.0 16.29 (some 14.3) (some (-13.8)) (some (-68.5)) 4.0 1.0 3.2 12.7 (.glasses "N_LAK10" "N_SF57" 0.5876)⟩,
  -- `thorlabs.py:1491-1496`
  ⟨"AC127_025_AB", "AC127-025-AB", true, .doublet 25.0 21.89 (some 19.1) (some (-17.8)) (some (-82.3)) 4.0 2.0 4.6 12.7 (.glasses "N_LAK10" "N_SF57" 0.5876)⟩,
  -- `thorlabs.py:1498-1503`
  ⟨"AC127_030_AB", "AC127-030-AB", true, .doublet 30.0 27.16 (some 16.7) (some (-13.8)) (some (-52.1)) 4.0 1.0 3.3 12.7 (.glasses "N_BK7" "N_SF2" 0.5876)⟩,
  -- `thorlabs.py:1505-1510`
  ⟨"AC127_050_AB", "AC127-050-AB", true, .doublet 50.0 46.56 (some 26.3) (some (-22.6)) (some (-102.4)) 4.0 2.0 5.0 12.7 (.glasses "N_BK7" "N_SF2" 0.5876)⟩,
  -- `thorlabs.py:1512-1517`
  ⟨"AC127_075_AB", "AC127-075-AB", true, .doublet 75.0 72.67 (some 38.4) (some (-35.0)) (some (-177.3)) 2.5 1.5 3.3 12.7 (.glasses "N_BK7" "N_SF2" 0.5876)⟩,
  -- `thorlabs.py:1519-1524`
  ⟨"AC254_030_AB", "AC254-030-AB", true, .doublet 30.0 21.22 (some 20.0) (some (-17.4)) (some (-93.1)) 12.0 3.0 9.5 25.4 (.glasses "S_BAH11" "S_TIH6" 0.5876)⟩,
  -- `thorlabs.py:1526-1531`
  ⟨"AC254_050_AB", "AC254-050-AB", true, .doublet 50.0 43.39 (some 34.9) (some (-28.8)) (some (-137.5)) 9.0 3.5 9.5 25.4 (.glasses "N_BAF10" "N_SF6" 0.5876)⟩,
  -- `thorlabs.py:1533-1538`
  ⟨"AC254_075_AB", "AC254-075-AB", true, .doublet 75.0 68.72 (some 52.0) (some (-43.4)) (some (-217.4)) 8.0 4.0 10.0 25.4 (.glasses "N_BAF10" "N_SF6" 0.5876)⟩,
  -- `thorlabs.py:1540-1545`
  ⟨"AC254_100_AB", "AC254-100-AB", true, .doublet 100.0 95.03 (some 92.4) (some (-48.2)) (some (-152.8)) 8.0 4.0 10.5 25.4 (.glasses "N_LAK22" "N_SF10" 0.5876)⟩,
  -- `thorlabs.py:1547-1552`
  ⟨"AC254_150_AB", "AC254-150-AB", true, .doublet 150.0 143.68 (some 87.9) (some (-105.6)) none 6.0 3.0 8.0 25.4 (.glasses "N_LAK22" "N_SF10" 0.5876)⟩,
  -- `thorlabs.py:1554-1559`
  ⟨"AC254_200_AB", "AC254-200-AB", true, .doublet 200.0 194.15 (some 117.1) (some (-142.1)) none 5.0 3.0 7.3 25.4 (.glasses "N_LAK22" "N_SF10" 0.5876)⟩,
  -- `thorlabs.py:1561-1566`
  ⟨"AC508_080_AB", "AC508-080-AB", true, .doublet 80.0 72.73 (some 63.6) (some (-80.6)) (some (-181.7)) 12.0 3.0 7.8 50.8 (.glasses "N_LAK22" "N_SF6" 0.5876)⟩,
  -- `thorlabs.py:1568-1573`
  ⟨"AC508_180_AB", "AC508-180-AB", true, .doublet 180.0 173.52 (some 144.4) (some (-115.4)) (some (-328.2)) 9.5 4.0 10.2 50.8 (.glasses "N_LAK22" "N_SF6" 0.5876)⟩,
  -- `thorlabs.py:1575-1580`
  ⟨"AC508_300_AB", "AC508-300-AB", true, .doublet 300.0 289.81 (some 167.7) (some (-285.8)) none 9.0 4.0 11.0 50.8 (.glasses "N_LAK22" "N_SF6" 0.5876)⟩,
  -- `thorlabs.py:1582-1587`
  ⟨"AC508_400_AB", "AC508-400-AB", true, .doublet 400.0 388.56 (some 184.3) (some (-274.0)) none 9.0 4.0 11.2 50.8 (.glasses "N_BAK4" "N_SF10" 0.5876)⟩,
  -- `thorlabs.py:1589-1594`
  ⟨"AC508_500_AB", "AC508-500-AB", true, .doublet 500.0 488.04 (some 230.3) (some (-343.9)) none 9.0 4.0 11.5 50.8 (.glasses "N_BAK4" "N_SF10" 0.5876)⟩,
  -- `thorlabs.py:1596-1601`
  ⟨"AC508_600_AB", "AC508-600-AB", true, .doublet 600.0 590.52 (some 276.4) (some (-413.9)) none 9.0 4.0 11.8 50.8 (.glasses "N_BAK4" "N_SF10" 0.5876)⟩,
  -- `thorlabs.py:1603-1608`
  ⟨"AC020_004_B", "AC020-004-B", true, .doublet 4.0 3.12 (some 3.19) (some (-1.77)) (some (-5.23)) 1.24 0.95 1.93 2.0 (.glasses "N_LAK22" "N_SF6HT" 0.5876)⟩,
  -- `thorlabs.py:1610-1615`
  ⟨"AC050_008_B", "AC050-008-B", true, .doublet 7.5 4.8 (some 4.6) (some (-3.9)) (some (-36.0)) 2.8 1.8 3.8 5.0 (.glasses "N_BAF10" "N_SF6HT" 0.5876)⟩,
  -- `thorlabs.py:1617-1622`
  ⟨"AC050_010_B", "AC050-010-B", true, .doublet 10.0 8.0 (some 6.6) (some (-5.3)) (some (-24.9)) 2.2 1.6 3.2 5.0 (.glasses "N_LAK22" "N_SF6HT" 0.5876)⟩,
  -- `thorlabs.py:1624-1629`
  ⟨"AC050_015_B", "AC050-015-B", true, .doublet 15.0 13.0 (some 10.3) (some (-7.6)) (some (-32.1)) 2.3 1.7 3.6 5.0 (.glasses "N_LAK22" "N_SF6HT" 0.5876)⟩,
  -- `thorlabs.py:1631-1636`
  ⟨"AC060_010_B", "AC060-010-B", true, .doublet 10.0 8.1 (some 7.1) (some (-5.3)) (some (-19.5)) 2.5 1.5 2.3 6.0 (.glasses "N_LAK22" "N_SF6HT" 0.5876)⟩,
  -- `thorlabs.py:1638-1643`
  ⟨"AC064_013_B", "AC064-013-B", true, .doublet 12.7 10.7 (some 8.6) (some (-6.7)) (some (-29.0)) 2.5 1.4 3.1 6.35 (.glasses "N_LAK22" "N_SF6HT" 0.5876)⟩,
  -- `thorlabs.py:1645-1650`
  ⟨"AC064_015_B", "AC064-015-B", true, .doublet 15.0 13.1 (some 10.3) (some (-7.8)) (some (-32.9)) 2.4 1.5 3.2 6.35 (.glasses "N_LAK22" "N_SF6HT" 0.5876)⟩,
  -- `thorlabs.py:1652-1657`
  ⟨"AC080_010_B", "AC080-010-B", true, .doublet 10.0 7.0 (some 7.6) (some (-4.6)) (some (-30.6)) 4.5 1.3 4.4 8.0 (.glasses "N_LAK10" "N_SF6HT" 0.5876)⟩,
  -- `thorlabs.py:1659-1664`
  ⟨"AC080_016_B", "AC080-016-B", true, .doublet 16.0 14.0 (some 11.0) (some (-8.6)) (some (-35.8)) 2.5 1.5 3.0 8.0 (.glasses "N_LAK22" "N_SF6HT" 0.5876)⟩,
  -- `thorlabs.py:1666-1671`
  ⟨"AC080_020_B", "AC080-020-B", true, .doublet 20.0 18.2 (some 13.5) (some (-10.6)) (some (-47.8)) 2.3 1.3 2.8 8.0 (.glasses "N_LAK22" "N_SF6HT" 0.5876)⟩,
  -- `thorlabs.py:1673-1678`
  ⟨"AC080_030_B", "AC080-030-B", true, .doublet 30.0 27.7 (some 18.5) (some (-16.2)) (some (-106.0)) 2.5 1.5 3.5 8.0 (.glasses "N_LAK22" "N_SF6" 0.5876)⟩,
  -- `thorlabs.py:1680-1685`
  ⟨"ACN127_020_B", "ACN127-020-B", true, .doublet (-20.0) (-22.5) (some (-12.3)) (some 14.0) (some 152.8) 1.5 3.0 6.4 12.7 (.glasses "N_BAF10" "N_SF6HT" 0.5876)⟩,
  -- `thorlabs.py:1687-1692`
  ⟨"ACN127_025_B", "ACN127-025-B", true, .doublet (-25.0) (-27.7) (some (-13.6)) (some 17.1) (some (-859.0)) 1.5 2.8 5.9 12.7 (.glasses "N_BAF10" "N_SF6HT" 0.5876)⟩,
  -- `thorlabs.py:1694-1699`
  ⟨"ACN127_030_B", "ACN127-030-B", true, .doublet (-30.0) (-32.0) (some (-19.3)) (some 18.4) (some 106.4) 1.5 2.5 5.3 12.7 (.glasses "N_LAK22" "N_SF6HT" 0.5876)⟩,
  -- `thorlabs.py:1701-1706`
  ⟨"ACN127_050_B", "ACN127-050-B", true, .doublet (-50.0) (-52.5) (some (-24.4)) (some 30.4) (some (-291.1)) 1.5 2.0 4.3 12.7 (.glasses "N_BAF10" "N_SF6HT" 0.5876)⟩,
  -- `thorlabs.py:1708-1713`
  ⟨"AC127_019_B", "AC127-019-B", true, .doublet 19.0 15.5 (some 12.2) (some (-10.6)) (some (-77.4)) 4.5 1.5 3.9 12.7 (.glasses "N_BAF10" "N_SF6HT" 0.5876)⟩,
  -- `thorlabs.py:1715-1720`
  ⟨"AC127_025_B", "AC127-025-B", true, .doublet 25.0 21.1 (some 16.2) (some (-13.3)) (some (-68.5)) 5.0 2.0 5.4 12.7 (.glasses "N_LAK22" "N_SF6HT" 0.5876)⟩,
  -- `thorlabs.py:1722-1727`
  ⟨"AC127_030_B", "AC127-030-B", true, .doublet 30.0 27.3 (some 19.8) (some (-16.2)) (some (-79.1)) 3.5 1.5 3.7 12.7 (.glasses "N_LAK22" "N_SF6HT" 0.5876)⟩,
  -- `thorlabs.py:1729-1734`
  ⟨"AC127_050_B", "AC127-050-B", true, .doublet 50.0 46.2 (some 24.2) (some (-26.8)) (some 250.0) 3.5 1.5 4.2 12.7 (.glasses "N_BAF10" "N_SF6HT" 0.5876)⟩,
  -- `thorlabs.py:1736-1741`
  ⟨"AC127_075_B", "AC127-075-B", true, .doublet 75.0 72.0 (some 36.2) (some (-40.4)) (some 398.1) 2.5 1.5 3.5 12.7 (.glasses "N_BAF10" "N_SF6HT" 0.5876)⟩,
  -- `thorlabs.py:1743-1748`
  ⟨"ACN254_040_B", "ACN254-040-B", true, .doublet (-40.0) (-43.4) (some (-24.43)) (some 27.86) (some 332.30) 2.0 4.0 9.8 25.4 (.glasses "N_BAF10" "N_SF6HT" 0.5876)⟩]

/-- `thorlabs.py:1750` to `thorlabs.py:2168`. -/
def catalogue3 : List CatLens := [
  -- `thorlabs.py:1750-1755`
  ⟨"ACN254_050_B", "ACN254-050-B", true, .doublet (-50.0) (-53.8) (some (-27.05)) (some 33.91) (some (-1330.50)) 2.0 4.0 9.1 25.4 (.glasses "N_BAF10" "N_SF6HT" 0.5876)⟩,
  -- `thorlabs.py:1757-1762`
  ⟨"ACN254_075_B", "ACN254-075-B", true, .doublet (-75.0) (-78.9) (some (-37.14)) (some 46.39) (some (-494.3)) 2.0 3.8 7.9 25.4 (.glasses "N_BAF10" "N_SF6HT" 0.5876)⟩,
  -- `thorlabs.py:1764-1769`
  ⟨"ACN254_100_B", "ACN254-100-B", true, .doublet (-100.1) (-103.9) (some (-48.8)) (some 59.0) (some (-580.8)) 2.0 3.4 6.9 25.4 (.glasses "N_BAF10" "N_SF6HT" 0.5876)⟩,
  -- `thorlabs.py:1771-1776`
  ⟨"AC254_030_B", "AC254-030-B", true, .doublet 30.0 23.0 (some 21.09) (some (-16.18)) (some (-79.08)) 12.0 1.5 8.2 25.4 (.glasses "N_BAF10" "N_SF6HT" 0.5876)⟩,
  -- `thorlabs.py:1778-1783`
  ⟨"AC254_035_B", "AC254-035-B", true, .doublet 35.0 28.4 (some 23.99) (some (-18.62)) (some (-97.27)) 10.5 1.5 7.5 25.4 (.glasses "N_BAF10" "N_SF6HT" 0.5876)⟩,
  -- `thorlabs.py:1785-1790`
  ⟨"AC254_040_B", "AC254-040-B", true, .doublet 40.0 32.8 (some 26.12) (some (-21.28)) (some (-137.09)) 10.0 2.5 8.6 25.4 (.glasses "N_BAF10" "N_SF6HT" 0.5876)⟩,
  -- `thorlabs.py:1792-1797`
  ⟨"AC254_045_B", "AC254-045-B", true, .doublet 45.0 39.6 (some 29.38) (some (-25.05)) (some (-127.06)) 7.8 1.6 5.9 25.4 (.glasses "N_LAK22" "N_SF6HT" 0.5876)⟩,
  -- `thorlabs.py:1799-1804`
  ⟨"AC254_050_B", "AC254-050-B", true, .doublet 50.0 45.0 (some 33.55) (some (-27.05)) (some (-125.60)) 7.5 1.8 6.2 25.4 (.glasses "N_LAK22" "N_SF6HT" 0.5876)⟩,
  -- `thorlabs.py:1806-1811`
  ⟨"AC254_060_B", "AC254-060-B", true, .doublet 60.0 55.8 (some 39.48) (some (-33.0)) (some (-165.20)) 6.0 1.7 5.1 25.4 (.glasses "N_LAK22" "N_SF6HT" 0.5876)⟩,
  -- `thorlabs.py:1813-1818`
  ⟨"AC254_075_B", "AC254-075-B", true, .doublet 75.0 69.9 (some 36.9) (some (-42.17)) (some 417.8) 5.0 1.6 4.5 25.4 (.glasses "N_BAF10" "N_SF6HT" 0.5876)⟩,
  -- `thorlabs.py:1820-1825`
  ⟨"AC254_080_B", "AC254-080-B", true, .doublet 80.3 73.5 (some 38.7) (some (-43.2)) (some 374.0) 6.6 2.0 6.4 25.4 (.glasses "N_BAF10" "N_SF6HT" 0.5876)⟩,
  -- `thorlabs.py:1827-1832`
  ⟨"AC254_100_B", "AC254-100-B", true, .doublet 100.0 97.1 (some 66.68) (some (-53.7)) (some (-259.41)) 4.0 1.5 4.0 25.4 (.glasses "N_LAK22" "N_SF6HT" 0.5876)⟩,
  -- `thorlabs.py:1834-1839`
  ⟨"AC254_125_B", "AC254-125-B", true, .doublet 125.0 115.4 (some 44.5) (some (-55.3)) (some 930.5) 6.0 6.0 10.0 25.4 (.glasses "N_BK7" "N_SF8" 0.5876)⟩,
  -- `thorlabs.py:1841-1846`
  ⟨"AC254_150_B", "AC254-150-B", true, .doublet 150.0 144.6 (some 83.6) (some (-89.33)) (some (-1330.50)) 4.0 3.5 6.5 25.4 (.glasses "N_LAK22" "N_SF6HT" 0.5876)⟩,
  -- `thorlabs.py:1848-1853`
  ⟨"AC254_200_B", "AC254-200-B", true, .doublet 200.0 194.8 (some 106.4) (some (-96.6)) (some 2000.0) 4.0 4.0 7.3 25.4 (.glasses "N_LAK22" "N_SF10" 0.5876)⟩,
  -- `thorlabs.py:1855-1860`
  ⟨"AC254_250_B", "AC254-250-B", true, .doublet 250.0 237.5 (some 52.0) (some (-65.31)) (some 111.51) 4.0 1.5 4.7 25.4 (.glasses "SF5" "N_SF6HT" 0.5876)⟩,
  -- `thorlabs.py:1862-1867`
  ⟨"AC254_300_B", "AC254-300-B", true, .doublet 300.0 290.0 (some 62.4) (some (-77.4)) (some 134.00) 4.0 2.0 5.3 25.4 (.glasses "SF5" "N_SF6HT" 0.5876)⟩,
  -- `thorlabs.py:1869-1874`
  ⟨"AC254_400_B", "AC254-400-B", true, .doublet 400.0 391.1 (some 83.6) (some (-106.41)) (some 181.55) 3.5 1.8 4.8 25.4 (.glasses "SF5" "N_SF6HT" 0.5876)⟩,
  -- `thorlabs.py:1876-1881`
  ⟨"AC254_500_B", "AC254-500-B", true, .doublet 500.0 480.8 (some 60.6) (some (-62.75)) (some 87.57) 4.0 2.0 5.6 25.4 (.glasses "N_SF10" "N_SF6HT" 0.5876)⟩,
  -- `thorlabs.py:1883-1888`
  ⟨"AC300_050_B", "AC300-050-B", true, .doublet 50.0 42.9 (some 30.8) (some (-27.9)) (some (-272.9)) 9.5 2.0 7.2 30.0 (.glasses "N_BAF10" "N_SF6HT" 0.5876)⟩,
  -- `thorlabs.py:1890-1895`
  ⟨"AC300_080_B", "AC300-080-B", true, .doublet 80.0 75.3 (some 52.5) (some (-42.7)) (some (-216.3)) 6.5 2.0 5.8 30.0 (.glasses "N_LAK22" "N_SF6HT" 0.5876)⟩,
  -- `thorlabs.py:1897-1902`
  ⟨"AC300_100_B", "AC300-100-B", true, .doublet 100.0 94.0 (some 49.1) (some (-55.3)) (some 557.4) 6.0 2.0 5.9 30.0 (.glasses "N_BAF10" "N_SF6HT" 0.5876)⟩,
  -- `thorlabs.py:1904-1909`
  ⟨"AC508_075_B", "AC508-075-B", true, .doublet 75.0 65.7 (some 51.8) (some (-93.1)) (some (-291.1)) 12.0 5.0 9.2 50.8 (.glasses "N_LAK22" "N_SF6HT" 0.5876)⟩,
  -- `thorlabs.py:1911-1916`
  ⟨"AC508_080_B", "AC508-080-B", true, .doublet 80.0 69.5 (some 51.8) (some (-44.6)) (some (-312.6)) 16.0 2.0 10.3 50.8 (.glasses "N_BAF10" "N_SF6HT" 0.5876)⟩,
  -- `thorlabs.py:1918-1923`
  ⟨"AC508_100_B", "AC508-100-B", true, .doublet 100.0 91.5 (some 65.8) (some (-56.0)) (some (-280.6)) 13.0 2.0 8.7 50.8 (.glasses "N_LAK22" "N_SF6HT" 0.5876)⟩,
  -- `thorlabs.py:1925-1930`
  ⟨"AC508_150_B", "AC508-150-B", true, .doublet 150.0 145.3 (some 112.2) (some (-95.9)) (some (-325.1)) 8.2 5.0 9.3 50.8 (.glasses "N_LAK22" "N_SF6HT" 0.5876)⟩,
  -- `thorlabs.py:1932-1937`
  ⟨"ACT508_200_B", "ACT508-200-B", true, .doublet 200.0 193.2 (some 121.0) (some (-118.7)) (some (-422.2)) 8.2 5.0 9.8 50.8 (.glasses "N_SK2" "N_SF57" 0.5876)⟩,
  -- `thorlabs.py:1939-1944`
  ⟨"ACT508_250_B", "ACT508-250-B", true, .doublet 250.0 241.8 (some 137.7) (some (-137.7)) (some (-930.4)) 8.1 6.0 11.4 50.8 (.glasses "N_SK2" "N_SF11" 0.5876)⟩,
  -- `thorlabs.py:1946-1951`
  ⟨"ACT508_300_B", "ACT508-300-B", true, .doublet 300.0 291.4 (some 158.1) (some (-171.1)) (some (-1529.9)) 8.0 6.0 11.8 50.8 (.glasses "N_SK2" "N_SF11" 0.5876)⟩,
  -- `thorlabs.py:1953-1958`
  ⟨"ACT508_400_B", "ACT508-400-B", true, .doublet 400.0 389.5 (some 189.8) (some (-152.8)) (some (-2290.9)) 8.0 6.0 12.5 50.8 (.glasses "N_SK2" "N_SF5" 0.5876)⟩,
  -- `thorlabs.py:1960-1965`
  ⟨"ACT508_500_B", "ACT508-500-B", true, .doublet 500.0 491.1 (some 233.8) (some (-192.8)) (some (-2471.1)) 6.0 6.0 10.8 50.8 (.glasses "N_SK2" "N_SF5" 0.5876)⟩,
  -- `thorlabs.py:1967-1972`
  ⟨"ACT508_750_B", "ACT508-750-B", true, .doublet 750.0 742.4 (some 386.7) (some (-269.6)) none 6.0 5.0 10.2 50.8 (.glasses "N_SK2" "N_SF5" 0.5876)⟩,
  -- `thorlabs.py:1974-1979`
  ⟨"ACT508_1000_B", "ACT508-1000-B", true, .doublet 1000.0 991.1 (some 465.2) (some (-388.7)) (some (-4726.2)) 6.0 6.0 11.4 50.8 (.glasses "N_SK2" "N_SF5" 0.5876)⟩,
  -- `thorlabs.py:1981-1986`
  ⟨"AC020_004_C", "AC020-004-C", true, .doublet 3.99 2.45 (some 1.89) (some (-2.0)) (some (-19.71)) 1.35 1.0 2.04 2.0 (.glasses "S_PHM52" "S_NPH2" 0.5876)⟩,
  -- `thorlabs.py:1988-1993`
  ⟨"AC050_008_C", "AC050-008-C", true, .doublet 7.5 5.2 (some 4.6) (some (-3.9)) (some (-23.9)) 2.5 1.5 3.1 5.0 (.glasses "N_LAK22" "N_SF6" 0.5876)⟩,
  -- `thorlabs.py:1995-2000`
  ⟨"AC050_010_C", "AC050-010-C", true, .doublet 10.0 6.9 (some 4.6) (some (-4.6)) (some 36.0) 2.5 1.5 3.4 5.0 (.glasses "N_LAK22" "N_SF6" 0.5876)⟩,
  -- `thorlabs.py:2002-2007`
  ⟨"AC050_015_C", "AC050-015-C", true, .doublet 15.0 11.6 (some 5.3) (some (-5.5)) (some 15.2) 2.0 1.3 2.9 5.0 (.glasses "N_BAF10" "N_SF6" 0.5876)⟩,
  -- `thorlabs.py:2009-2014`
  ⟨"AC060_010_C", "AC060-010-C", true, .doublet 10.0 8.5 (some 10.4) (some (-3.6)) (some (-9.2)) 3.5 1.3 3.9 6.0 (.glasses "N_LAK22" "N_SF6" 0.5876)⟩,
  -- `thorlabs.py:2016-2021`
  ⟨"AC064_013_C", "AC064-013-C", true, .doublet 12.7 11.4 (some 13.2) (some (-4.9)) (some (-12.4)) 2.8 1.3 3.3 6.35 (.glasses "N_LAK22" "N_SF6" 0.5876)⟩,
  -- `thorlabs.py:2023-2028`
  ⟨"AC064_015_C", "AC064-015-C", true, .doublet 15.0 14.4 (some 22.7) (some (-4.9)) (some (-11.3)) 2.3 1.3 2.9 6.35 (.glasses "N_LAK22" "N_SF6" 0.5876)⟩,
  -- `thorlabs.py:2030-2035`
  ⟨"AC080_010_C", "AC080-010-C", true, .doublet 10.0 7.2 (some 7.1) (some (-4.9)) (some (-20.9)) 4.2 1.3 3.9 8.0 (.glasses "N_BAF10" "N_SF6" 0.5876)⟩,
  -- `thorlabs.py:2037-2042`
  ⟨"AC080_016_C", "AC080-016-C", true, .doublet 16.0 12.3 (some 7.5) (some (-7.8)) (some 68.5) 3.5 1.3 3.8 8.0 (.glasses "N_LAK22" "N_SF6" 0.5876)⟩,
  -- `thorlabs.py:2044-2049`
  ⟨"AC080_020_C", "AC080-020-C", true, .doublet 20.0 15.7 (some 7.8) (some (-8.6)) (some 31.9) 3.3 1.3 3.7 8.0 (.glasses "N_LAK22" "N_SF6" 0.5876)⟩,
  -- `thorlabs.py:2051-2056`
  ⟨"AC080_030_C", "AC080-030-C", true, .doublet 30.0 27.3 (some 12.3) (some (-16.0)) (some (-70.4)) 2.3 2.3 3.7 8.0 (.glasses "N_PK52A" "N_SF6" 0.5876)⟩,
  -- `thorlabs.py:2058-2063`
  ⟨"AC127_019_C", "AC127-019-C", true, .doublet 19.0 15.4 (some 12.4) (some (-10.0)) (some (-48.8)) 5.0 1.5 4.4 12.7 (.glasses "N_LAK22" "N_SF6" 0.5876)⟩,
  -- `thorlabs.py:2065-2070`
  ⟨"AC127_025_C", "AC127-025-C", true, .doublet 25.0 20.3 (some 12.0) (some (-12.9)) (some 151.7) 4.7 1.5 4.6 12.7 (.glasses "N_LAK22" "N_SF6" 0.5876)⟩,
  -- `thorlabs.py:2072-2077`
  ⟨"AC127_030_C", "AC127-030-C", true, .doublet 30.0 24.5 (some 12.4) (some (-14.0)) (some 65.3) 4.7 1.5 4.8 12.7 (.glasses "N_LAK22" "N_SF6" 0.5876)⟩,
  -- `thorlabs.py:2079-2084`
  ⟨"AC127_050_C", "AC127-050-C", true, .doublet 49.9 43.5 (some 16.0) (some (-18.4)) (some 44.6) 4.0 1.5 4.7 12.7 (.glasses "N_BAF10" "N_SF6" 0.5876)⟩,
  -- `thorlabs.py:2086-2091`
  ⟨"AC127_075_C", "AC127-075-C", true, .doublet 75.1 69.8 (some 23.2) (some (-27.9)) (some 66.7) 3.0 1.5 3.9 12.7 (.glasses "N_BAF10" "N_SF6" 0.5876)⟩,
  -- `thorlabs.py:2093-2098`
  ⟨"AC254_030_C", "AC254-030-C", true, .doublet 30.4 22.2 (some 21.1) (some (-15.2)) (some (-71.1)) 13.0 1.8 9.5 25.4 (.glasses "N_BAF10" "N_SF6" 0.5876)⟩,
  -- `thorlabs.py:2100-2105`
  ⟨"AC254_035_C", "AC254-035-C", true, .doublet 35.1 27.4 (some 23.2) (some (-17.9)) (some (-105.2)) 11.5 1.8 8.8 25.4 (.glasses "N_BAF10" "N_SF6" 0.5876)⟩,
  -- `thorlabs.py:2107-2112`
  ⟨"AC254_040_C", "AC254-040-C", true, .doublet 40.0 32.8 (some 24.4) (some (-21.1)) (some (-143.9)) 10.0 1.8 7.8 25.4 (.glasses "N_LAK22" "N_SF6" 0.5876)⟩,
  -- `thorlabs.py:2114-2119`
  ⟨"AC254_045_C", "AC254-045-C", true, .doublet 45.0 36.7 (some 22.9) (some (-23.7)) (some 900.0) 9.6 1.8 7.7 25.4 (.glasses "N_LAK22" "N_SF6" 0.5876)⟩,
  -- `thorlabs.py:2121-2126`
  ⟨"AC254_050_C", "AC254-050-C", true, .doublet 50.0 41.2 (some 22.9) (some (-25.9)) (some 194.5) 9.0 1.8 7.3 25.4 (.glasses "N_LAK22" "N_SF6" 0.5876)⟩,
  -- `thorlabs.py:2128-2133`
  ⟨"AC254_060_C", "AC254-060-C", true, .doublet 60.0 50.5 (some 23.9) (some (-28.1)) (some 112.1) 8.3 1.8 7.2 25.4 (.glasses "N_LAK22" "N_SF6" 0.5876)⟩,
  -- `thorlabs.py:2135-2140`
  ⟨"AC254_075_C", "AC254-075-C", true, .doublet 75.1 65.0 (some 26.4) (some (-29.4)) (some 84.9) 7.6 1.8 7.1 25.4 (.glasses "N_BAF10" "N_SF6" 0.5876)⟩,
  -- `thorlabs.py:2142-2147`
  ⟨"AC254_100_C", "AC254-100-C", true, .doublet 100.1 90.4 (some 32.1) (some (-38.0)) (some 93.5) 6.5 1.8 6.6 25.4 (.glasses "N_BAF10" "N_SF6" 0.5876)⟩,
  -- `thorlabs.py:2149-2154`
  ⟨"AC254_125_C", "AC254-125-C", true, .doublet 125.0 115.35 (some 36.9) (some (-47.5)) (some 108.6) 5.0 3.0 6.5 25.4 (.glasses "N_LAK22" "N_SF6" 0.5876)⟩,
  -- `thorlabs.py:2156-2161`
  ⟨"AC254_150_C", "AC254-150-C", true, .doublet 150.5 140.8 (some 42.7) (some (-52.0)) (some 111.5) 5.0 2.5 6.3 25.4 (.glasses "N_BAF10" "N_SF6" 0.5876)⟩,
  -- `thorlabs.py:2163-2168`
  ⟨"AC254_200_C", "AC254-200-C", true, .doublet 200.1 193.1 (some 70.0) (some (-95.9)) (some 274.3) 4.0 3.0 6.2 25.4 (.glasses "N_LAK22" "N_SF6" 0.5876)⟩]

/-- `thorlabs.py:2170` to `thorlabs.py:2595`. -/
def catalogue4 : List CatLens := [
  -- `thorlabs.py:2170-2175`
  ⟨"AC254_250_C", "AC254-250-C", true, .doublet 249.2 235.2 (some 44.0) (some (-57.7)) (some 93.1) 4.5 2.5 6.0 25.4 (.glasses "N_SF2" "N_SF6" 0.5876)⟩,
  -- `thorlabs.py:2177-2182`
  ⟨"AC254_300_C", "AC254-300-C", true, .doublet 299.9 285.8 (some 52.5) (some (-68.5)) (some 112.2) 4.5 2.5 6.2 25.4 (.glasses "N_SF2" "N_SF6" 0.5876)⟩,
  -- `thorlabs.py:2184-2189`
  ⟨"AC254_400_C", "AC254-400-C", true, .doublet 400.1 386.7 (some 70.0) (some (-93.1)) (some 151.4) 4.2 2.5 6.1 25.4 (.glasses "N_SF2" "N_SF6" 0.5876)⟩,
  -- `thorlabs.py:2191-2196`
  ⟨"AC254_500_C", "AC254-500-C", true, .doublet 497.6 486.7 (some 87.9) (some (-115.5)) (some 194.5) 3.5 2.0 5.0 25.4 (.glasses "N_SF2" "N_SF6" 0.5876)⟩,
  -- `thorlabs.py:2198-2203`
  ⟨"AC300_050_C", "AC300-050-C", true, .doublet 50.1 44.7 (some 41.7) (some (-22.7)) (some (-75.7)) 10.0 2.0 7.7 30.0 (.glasses "N_BAF10" "N_SF6" 0.5876)⟩,
  -- `thorlabs.py:2205-2210`
  ⟨"AC300_080_C", "AC300-080-C", true, .doublet 80.5 68.5 (some 29.4) (some (-33.9)) (some 97.7) 9.5 2.0 8.5 30.0 (.glasses "N_BAF10" "N_SF6" 0.5876)⟩,
  -- `thorlabs.py:2212-2217`
  ⟨"AC300_100_C", "AC300-100-C", true, .doublet 99.9 87.8 (some 33.5) (some (-39.2)) (some 100.7) 8.5 2.2 8.3 30.0 (.glasses "N_BAF10" "N_SF6" 0.5876)⟩,
  -- `thorlabs.py:2219-2224`
  ⟨"AC508_075_C", "AC508-075-C", true, .doublet 75.4 63.0 (some 49.9) (some (-39.1)) (some (-230.7)) 19.0 2.5 13.1 50.8 (.glasses "N_BAF10" "N_SF6" 0.5876)⟩,
  -- `thorlabs.py:2226-2231`
  ⟨"AC508_080_C", "AC508-080-C", true, .doublet 80.3 66.9 (some 47.2) (some (-43.2)) (some (-640.7)) 18.0 2.5 12.6 50.8 (.glasses "N_BAF10" "N_SF6" 0.5876)⟩,
  -- `thorlabs.py:2233-2238`
  ⟨"AC508_100_C", "AC508-100-C", true, .doublet 99.7 83.0 (some 44.7) (some (-48.3)) (some 259.4) 17.0 2.5 12.8 50.8 (.glasses "N_BAF10" "N_SF6" 0.5876)⟩,
  -- `thorlabs.py:2240-2245`
  ⟨"AC508_150_C", "AC508-150-C", true, .doublet 150.2 117.7 (some 39.5) (some (-49.9)) (some 83.6) 18.0 5.0 17.7 50.8 (.glasses "N_LAK22" "N_SF6" 0.5876)⟩,
  -- `thorlabs.py:2247-2252`
  ⟨"AC508_200_C", "AC508-200-C", true, .doublet 199.2 182.7 (some 67.1) (some (-87.6)) (some 234.3) 12.0 3.0 11.4 50.8 (.glasses "N_LAK22" "N_SF6" 0.5876)⟩,
  -- `thorlabs.py:2254-2259`
  ⟨"ACT508_250_C", "ACT508-250-C", true, .doublet 250.0 235.7 (some 104.7) (some (-110.1)) (some 349.5) 10.0 5.0 12.8 50.8 (.glasses "H_LAF3B" "H_ZF52GT" 0.5876)⟩,
  -- `thorlabs.py:2261-2266`
  ⟨"ACT508_300_C", "ACT508-300-C", true, .doublet 300.0 290.8 (some 199.7) (some (-91.4)) none 10.0 5.0 13.4 50.8 (.glasses "H_LAF3B" "H_ZF13" 0.5876)⟩,
  -- `thorlabs.py:2268-2273`
  ⟨"ACT508_400_C", "ACT508-400-C", true, .doublet 400.0 389.7 (some 228.7) (some (-64.9)) none 10.0 6.0 14.6 50.8 (.glasses "H_ZK50" "H_F4" 0.5876)⟩,
  -- `thorlabs.py:2275-2280`
  ⟨"AC508_500_C", "AC508-500-C", true, .doublet 499.7 474.3 (some 86.1) (some (-103.2)) (some 166.0) 8.8 3.0 9.9 50.8 (.glasses "N_SF5" "N_SF6" 0.5876)⟩,
  -- `thorlabs.py:2282-2287`
  ⟨"AC508_750_C", "AC508-750-C", true, .doublet 748.9 710.6 (some 91.6) (some (-95.9)) (some 130.6) 8.8 3.0 10.7 50.8 (.glasses "N_SF10" "N_SF6" 0.5876)⟩,
  -- `thorlabs.py:2289-2294`
  ⟨"AC508_1000_C", "AC508-1000-C", true, .doublet 1010.0 990.3 (some 173.0) (some (-234.3)) (some 336.0) 6.0 3.0 8.1 50.8 (.glasses "N_SF5" "N_SF6" 0.5876)⟩,
  -- `thorlabs.py:2296-2301`
  ⟨"AC050_008_A_ML", "AC050-008-A-ML", true, .doublet 7.5 5.2 (some 5.3) (some (-3.9)) (some (-17.1)) 2.8 1.7 3.7 5.0 (.glasses "N_BAF10" "N_SF6HT" 0.5876)⟩,
  -- `thorlabs.py:2303-2308`
  ⟨"AC050_010_A_ML", "AC050-010-A-ML", true, .doublet 10.0 7.9 (some 6.6) (some (-4.3)) (some (-15.4)) 2.5 1.9 3.7 5.0 (.glasses "N_BAK4" "SF5" 0.5876)⟩,
  -- `thorlabs.py:2310-2315`
  ⟨"AC050_015_A_ML", "AC050-015-A-ML", true, .doublet 15.0 13.6 (some 12.5) (some (-5.3)) (some (-12.1)) 2.7 2.1 4.3 5.0 (.glasses "N_BK7" "SF2" 0.5876)⟩,
  -- `thorlabs.py:2317-2322`
  ⟨"AC060_010_A_ML", "AC060-010-A-ML", true, .doublet 10.0 7.9 (some 6.2) (some (-4.6)) (some (-19.6)) 2.5 1.5 3.0 6.0 (.glasses "N_BAK4" "SF5" 0.5876)⟩,
  -- `thorlabs.py:2324-2329`
  ⟨"AC064_013_A_ML", "AC064-013-A-ML", true, .doublet 12.7 10.3 (some 7.1) (some (-5.9)) (some (-40.4)) 2.5 1.5 3.1 6.35 (.glasses "N_BAK4" "SF5" 0.5876)⟩,
  -- `thorlabs.py:2331-2336`
  ⟨"AC064_015_A_ML", "AC064-015-A-ML", true, .doublet 15.0 13.0 (some 8.8) (some (-6.6)) (some (-21.7)) 2.5 1.5 3.2 6.35 (.glasses "N_BK7" "SF2" 0.5876)⟩,
  -- `thorlabs.py:2338-2343`
  ⟨"AC080_010_A_ML", "AC080-010-A-ML", true, .doublet 10.0 6.7 (some 7.1) (some (-5.3)) (some (-22.7)) 4.5 2.0 4.9 8.0 (.glasses "N_BAF10" "N_SF6HT" 0.5876)⟩,
  -- `thorlabs.py:2345-2350`
  ⟨"AC080_016_A_ML", "AC080-016-A-ML", true, .doublet 16.0 13.9 (some 11.0) (some (-9.2)) (some (-46.8)) 2.5 1.5 3.1 8.0 (.glasses "N_BAF10" "N_SF6HT" 0.5876)⟩,
  -- `thorlabs.py:2352-2357`
  ⟨"AC080_020_A_ML", "AC080-020-A-ML", true, .doublet 20.0 17.8 (some 11.1) (some (-9.2)) (some (-34.8)) 2.5 1.5 3.0 8.0 (.glasses "N_BK7" "SF2" 0.5876)⟩,
  -- `thorlabs.py:2359-2364`
  ⟨"AC080_030_A_ML", "AC080-030-A-ML", true, .doublet 30.0 27.8 (some 16.0) (some (-13.5)) (some (-59.4)) 2.5 1.5 3.4 8.0 (.glasses "N_BK7" "N_SF2" 0.5876)⟩,
  -- `thorlabs.py:2366-2371`
  ⟨"AC127_019_A_ML", "AC127-019-A-ML", true, .doublet 19.0 15.7 (some 12.9) (some (-11.0)) (some (-59.3)) 4.5 1.5 4.0 12.7 (.glasses "N_BAF10" "N_SF6HT" 0.5876)⟩,
  -- `thorlabs.py:2373-2378`
  ⟨"AC127_025_A_ML", "AC127-025-A-ML", true, .doublet 25.0 21.5 (some 18.8) (some (-10.6)) (some (-68.1)) 5.0 2.0 5.6 12.7 (.glasses "N_BAF10" "N_SF10" 0.5876)⟩,
  -- `thorlabs.py:2380-2385`
  ⟨"AC127_030_A_ML", "AC127-030-A-ML", true, .doublet 30.0 27.5 (some 17.9) (some (-13.5)) (some (-44.2)) 3.5 1.5 3.4 12.7 (.glasses "N_BK7" "SF2" 0.5876)⟩,
  -- `thorlabs.py:2387-2392`
  ⟨"AC127_050_A_ML", "AC127-050-A-ML", true, .doublet 50.0 47.2 (some 27.4) (some (-22.5)) (some (-91.8)) 3.5 1.5 4.0 12.7 (.glasses "N_BK7" "SF2" 0.5876)⟩,
  -- `thorlabs.py:2394-2399`
  ⟨"AC127_075_A_ML", "AC127-075-A-ML", true, .doublet 75.0 72.9 (some 41.3) (some (-34.0)) (some (-137.1)) 2.5 1.5 3.4 12.7 (.glasses "N_BK7" "SF2" 0.5876)⟩,
  -- `thorlabs.py:2401-2406`
  ⟨"AC254_030_A_ML", "AC254-030-A-ML", true, .doublet 30.0 22.9 (some 20.9) (some (-16.7)) (some (-79.8)) 12.0 2.0 8.8 25.4 (.glasses "N_BAF10" "N_SF6HT" 0.5876)⟩,
  -- `thorlabs.py:2408-2413`
  ⟨"AC254_035_A_ML", "AC254-035-A-ML", true, .doublet 35.0 27.3 (some 24.0) (some (-19.1)) (some (-102.1)) 12.0 2.0 9.6 25.4 (.glasses "N_BAF10" "N_SF6HT" 0.5876)⟩,
  -- `thorlabs.py:2415-2420`
  ⟨"AC254_040_A_ML", "AC254-040-A-ML", true, .doublet 40.0 33.4 (some 23.7) (some (-20.1)) (some (-57.7)) 10.0 2.5 7.4 25.4 (.glasses "N_BK7" "SF5" 0.5876)⟩,
  -- `thorlabs.py:2422-2427`
  ⟨"AC254_045_A_ML", "AC254-045-A-ML", true, .doublet 45.0 40.2 (some 31.2) (some (-25.9)) (some (-130.6)) 7.0 2.0 5.7 25.4 (.glasses "N_BAF10" "N_SF6HT" 0.5876)⟩,
  -- `thorlabs.py:2429-2434`
  ⟨"AC254_050_A_ML", "AC254-050-A-ML", true, .doublet 50.0 43.4 (some 33.3) (some (-22.3)) (some (-291.1)) 9.0 2.5 8.7 25.4 (.glasses "N_BAF10" "N_SF10" 0.5876)⟩,
  -- `thorlabs.py:2443-2448`
  ⟨"AC254_075_A_ML", "AC254-075-A-ML", true, .doublet 75.0 70.3 (some 46.5) (some (-33.9)) (some (-95.5)) 7.0 2.5 6.9 25.4 (.glasses "N_BK7" "SF5" 0.5876)⟩,
  -- `thorlabs.py:2450-2455`
  ⟨"AC254_080_A_ML", "AC254-080-A-ML", true, .doublet 80.0 75.3 (some 49.6) (some (-35.5)) (some (-101.2)) 7.0 3.0 7.3 25.4 (.glasses "N_BK7" "N_SF5" 0.5876)⟩,
  -- `thorlabs.py:2457-2462`
  ⟨"AC254_100_A_ML", "AC254-100-A-ML", true, .doublet 100.0 97.1 (some 62.8) (some (-45.7)) (some (-128.2)) 4.0 2.5 4.7 25.4 (.glasses "N_BK7" "SF5" 0.5876)⟩,
  -- `thorlabs.py:2464-2469`
  ⟨"AC254_125_A_ML", "AC254-125-A-ML", true, .doublet 125.0 122.0 (some 77.6) (some (-55.9)) (some (-160.8)) 4.0 2.8 5.0 25.4 (.glasses "N_BK7" "N_SF5" 0.5876)⟩,
  -- `thorlabs.py:2471-2476`
  ⟨"AC254_150_A_ML", "AC254-150-A-ML", true, .doublet 150.0 146.1 (some 91.6) (some (-66.7)) (some (-197.7)) 5.7 2.2 6.6 25.4 (.glasses "N_BK7" "SF5" 0.5876)⟩,
  -- `thorlabs.py:2478-2483`
  ⟨"AC254_200_A_ML", "AC254-200-A-ML", true, .doublet 200.0 194.0 (some 77.4) (some (-87.6)) (some 291.1) 4.0 2.5 5.7 25.4 (.glasses "N_SSK5" "LAFN7" 0.5876)⟩,
  -- `thorlabs.py:2485-2490`
  ⟨"AC254_250_A_ML", "AC254-250-A-ML", true, .doublet 250.0 246.7 (some 137.1) (some (-111.5)) (some (-459.2)) 4.0 2.0 5.2 25.4 (.glasses "N_BK7" "SF2" 0.5876)⟩,
  -- `thorlabs.py:2492-2497`
  ⟨"AC254_300_A_ML", "AC254-300-A-ML", true, .doublet 300.0 297.0 (some 165.2) (some (-137.1)) (some (-557.4)) 4.0 2.0 5.4 25.4 (.glasses "N_BK7" "SF2" 0.5876)⟩,
  -- `thorlabs.py:2499-2504`
  ⟨"AC254_400_A_ML", "AC254-400-A-ML", true, .doublet 400.0 396.0 (some 219.8) (some (-181.6)) (some (-738.5)) 4.0 2.0 5.5 25.4 (.glasses "N_BK7" "SF2" 0.5876)⟩,
  -- `thorlabs.py:2506-2511`
  ⟨"AC254_500_A_ML", "AC254-500-A-ML", true, .doublet 500.0 499.9 (some 337.3) (some (-186.8)) (some (-557.4)) 4.0 2.0 5.6 25.4 (.glasses "N_BK7" "SF2" 0.5876)⟩,
  -- `thorlabs.py:2513-2518`
  ⟨"AC508_075_A_ML", "AC508-075-A-ML", true, .doublet 75.0 61.7 (some 50.8) (some (-41.7)) (some (-247.7)) 20.0 3.0 14.9 50.8 (.glasses "E_BAF11" "N_SF11" 0.5876)⟩,
  -- `thorlabs.py:2520-2525`
  ⟨"AC508_080_A_ML", "AC508-080-A-ML", true, .doublet 80.0 69.9 (some 54.9) (some (-46.4)) (some (-247.2)) 16.0 2.0 10.5 50.8 (.glasses "N_BAF10" "N_SF6HT" 0.5876)⟩,
  -- `thorlabs.py:2527-2532`
  ⟨"AC508_100_A_ML", "AC508-100-A-ML", true, .doublet 100.0 89.0 (some 71.1) (some (-44.2)) (some (-363.1)) 16.0 4.0 14.4 50.8 (.glasses "N_BAF10" "N_SF10" 0.5876)⟩,
  -- `thorlabs.py:2534-2539`
  ⟨"AC508_150_A_ML", "AC508-150-A-ML", true, .doublet 150.0 140.4 (some 83.2) (some (-72.1)) (some (-247.7)) 12.0 3.0 9.7 50.8 (.glasses "N_BK7" "SF5" 0.5876)⟩,
  -- `thorlabs.py:2541-2546`
  ⟨"AC508_180_A_MLd", "AC508-180-A-MLd", true, .doublet 180.0 172.7 (some 109.7) (some (-80.7)) (some (-238.5)) 12.0 2.0 9.4 50.8 (.glasses "N_BK7" "N_SF5" 0.5876)⟩,
  -- `thorlabs.py:2548-2553`
  ⟨"ACT508_200_A_MLd", "ACT508-200-A-MLd", true, .doublet 200.0 190.6 (some 106.2) (some (-92.1)) (some (-409.4)) 10.6 6.0 12.8 50.8 (.glasses "N_BK7" "N_SF2" 0.5876)⟩,
  -- `thorlabs.py:2555-2560`
  ⟨"ACT508_250_A_ML", "ACT508-250-A-ML", true, .doublet 250.0 241.4 (some 131.2) (some (-116.0)) (some (-538.1)) 9.3 6.0 12.3 50.8 (.glasses "N_BK7" "N_SF2" 0.5876)⟩,
  -- `thorlabs.py:2562-2567`
  ⟨"ACT508_300_A_ML", "ACT508-300-A-ML", true, .doublet 300.0 291.3 (some 153.7) (some (-139.9)) (some (-706.8)) 8.4 7.0 12.4 50.8 (.glasses "N_BK7" "N_SF2" 0.5876)⟩,
  -- `thorlabs.py:2569-2574`
  ⟨"ACT508_400_A_ML", "ACT508-400-A-ML", true, .doublet 400.0 394.6 (some 292.3) (some (-148.9)) (some (-398.5)) 8.0 8.0 14.1 50.8 (.glasses "N_BK7" "N_SF2" 0.5876)⟩,
  -- `thorlabs.py:2576-2581`
  ⟨"ACT508_500_A_ML", "ACT508-500-A-ML", true, .doublet 500.0 496.3 (some 382.5) (some (-182.1)) (some (-471.2)) 6.0 6.0 10.5 50.8 (.glasses "N_BK7" "N_SF2" 0.5876)⟩,
  -- `thorlabs.py:2583-2588`
  ⟨"ACT508_750_A_ML", "ACT508-750-A-ML", true, .doublet 750.0 743.9 (some 398.6) (some (-343.7)) (some (-1544.5)) 6.0 6.0 11.0 50.8 (.glasses "N_BK7" "N_SF2" 0.5876)⟩,
  -- `thorlabs.py:2590-2595`
  ⟨"ACT508_1000_A_ML", "ACT508-1000-A-ML", true, .doublet 1000.0 996.4 (some 757.9) (some (-364.7)) (some (-954.2)) 6.0 6.0 11.3 50.8 (.glasses "N_BK7" "N_SF2" 0.5876)⟩]

/-- `thorlabs.py:2597` to `thorlabs.py:3015`. -/
def catalogue5 : List CatLens := [
  -- `thorlabs.py:2597-2602`
  ⟨"AC127_019_AB_ML", "AC127-019-AB-ML", true, .doublet 19.0 16.29 (some 14.3) (some (-13.8)) (some (-68.5)) 4.0 1.0 3.2 12.7 (.glasses "N_LAK10" "N_SF57" 0.5876)⟩,
  -- `thorlabs.py:2604-2609`
  ⟨"AC127_025_AB_ML", "AC127-025-AB-ML", true, .doublet 25.0 21.89 (some 19.1) (some (-17.8)) (some (-82.3)) 4.0 2.0 4.6 12.7 (.glasses "N_LAK10" "N_SF57" 0.5876)⟩,
  -- `thorlabs.py:2611-2616`
  ⟨"AC127_030_AB_ML", "AC127-030-AB-ML", true, .doublet 30.0 27.16 (some 16.7) (some (-13.8)) (some (-52.1)) 4.0 1.0 3.3 12.7 (.glasses "N_BK7" "N_SF2" 0.5876)⟩,
  -- `thorlabs.py:2618-2623`
  ⟨"AC127_050_AB_ML", "AC127-050-AB-ML", true, .doublet 50.0 46.56 (some 23.3) (some (-22.6)) (some (-102.4)) 4.0 2.0 5.0 12.7 (.glasses "N_BK7" "N_SF2" 0.5876)⟩,
  -- `thorlabs.py:2625-2630`
  ⟨"AC127_075_AB_ML", "AC127-075-AB-ML", true, .doublet 75.0 72.67 (some 38.4) (some (-35.0)) (some (-1773)) 2.5 1.5 3.3 12.7 (.glasses "N_BK7" "N_SF2" 0.5876)⟩,
  -- `thorlabs.py:2632-2637`
  ⟨"AC254_030_AB_ML", "AC254-030-AB-ML", true, .doublet 30.0 21.22 (some 20.0) (some (-17.4)) (some (-93.1)) 12.0 3.0 9.5 25.4 (.glasses "S_BAH11" "S_TIH6" 0.5876)⟩,
  -- `thorlabs.py:2639-2644`
  ⟨"AC254_050_AB_ML", "AC254-050-AB-ML", true, .doublet 50.0 43.39 (some 34.9) (some (-28.8)) (some (-137.5)) 9.0 3.5 9.5 25.4 (.glasses "N_BAF10" "N_SF6" 0.5876)⟩,
  -- `thorlabs.py:2646-2651`
  ⟨"AC254_075_AB_ML", "AC254-075-AB-ML", true, .doublet 75.0 68.72 (some 52.0) (some (-43.4)) (some (-217.4)) 8.0 4.0 10.0 25.4 (.glasses "N_BAF10" "N_SF6" 0.5876)⟩,
  -- `thorlabs.py:2653-2658`
  ⟨"AC254_100_AB_ML", "AC254-100-AB-ML", true, .doublet 100.0 95.03 (some 92.4) (some (-48.2)) (some (-152.8)) 8.0 4.0 10.5 25.4 (.glasses "N_LAK22" "N_SF10" 0.5876)⟩,
  -- `thorlabs.py:2660-2665`
  ⟨"AC254_150_AB_ML", "AC254-150-AB-ML", true, .doublet 150.0 143.68 (some 87.9) (some (-105.6)) none 6.0 3.0 8.0 25.4 (.glasses "N_LAK22" "N_SF10" 0.5876)⟩,
  -- `thorlabs.py:2667-2672`
  ⟨"AC254_200_AB_ML", "AC254-200-AB-ML", true, .doublet 200.0 194.15 (some 117.1) (some (-142.1)) none 5.0 3.0 7.3 25.4 (.glasses "N_LAK22" "N_SF10" 0.5876)⟩,
  -- `thorlabs.py:2674-2679`
  ⟨"AC508_080_AB_ML", "AC508-080-AB-ML", true, .doublet 80.0 72.73 (some 63.6) (some (-80.6)) (some (-181.7)) 12.0 3.0 7.8 50.8 (.glasses "N_LAK22" "N_SF6" 0.5876)⟩,
  -- `thorlabs.py:2681-2686`
  ⟨"AC508_180_AB_ML", "AC508-180-AB-ML", true, .doublet 180.0 173.52 (some 144.4) (some (-115.4)) (some (-328.2)) 9.5 4.0 10.2 50.8 (.glasses "N_LAK22" "N_SF6" 0.5876)⟩,
  -- `thorlabs.py:2688-2693`
  ⟨"AC508_300_AB_ML", "AC508-300-AB-ML", true, .doublet 300.0 289.81 (some 167.7) (some (-285.8)) none 9.0 4.0 11.0 50.8 (.glasses "N_LAK22" "N_SF6" 0.5876)⟩,
  -- `thorlabs.py:2695-2700`
  ⟨"AC508_400_AB_ML", "AC508-400-AB-ML", true, .doublet 400.0 388.56 (some 184.3) (some (-274.0)) none 9.0 4.0 11.2 50.8 (.glasses "N_BAK4" "N_SF10" 0.5876)⟩,
  -- `thorlabs.py:2702-2707`
  ⟨"AC508_500_AB_ML", "AC508-500-AB-ML", true, .doublet 500.0 488.04 (some 230.3) (some (-343.9)) none 9.0 4.0 11.5 50.8 (.glasses "N_BAK4" "N_SF10" 0.5876)⟩,
  -- `thorlabs.py:2709-2714`
  ⟨"AC508_600_AB_ML", "AC508-600-AB-ML", true, .doublet 600.0 590.52 (some 276.4) (some (-413.9)) none 9.0 4.0 11.8 50.8 (.glasses "N_BAK4" "N_SF10" 0.5876)⟩,
  -- `thorlabs.py:2716-2721`
  ⟨"AC050_008_B_ML", "AC050-008-B-ML", true, .doublet 7.5 4.8 (some 4.6) (some (-3.9)) (some (-36.0)) 2.8 1.8 3.8 5.0 (.glasses "N_BAF10" "N_SF6HT" 0.5876)⟩,
  -- `thorlabs.py:2723-2728`
  ⟨"AC050_010_B_ML", "AC050-010-B-ML", true, .doublet 10.0 8.0 (some 6.6) (some (-5.3)) (some (-24.9)) 2.2 1.6 3.2 5.0 (.glasses "N_LAK22" "N_SF6HT" 0.5876)⟩,
  -- `thorlabs.py:2730-2735`
  ⟨"AC050_015_B_ML", "AC050-015-B-ML", true, .doublet 15.0 13.0 (some 10.3) (some (-7.6)) (some (-32.1)) 2.3 1.7 3.6 5.0 (.glasses "N_LAK22" "N_SF6HT" 0.5876)⟩,
  -- `thorlabs.py:2737-2742`
  ⟨"AC060_010_B_ML", "AC060-010-B-ML", true, .doublet 10.0 8.1 (some 7.1) (some (-5.3)) (some (-19.5)) 2.5 1.5 2.3 6.0 (.glasses "N_LAK22" "N_SF6HT" 0.5876)⟩,
  -- `thorlabs.py:2744-2749`
  ⟨"AC064_013_B_ML", "AC064-013-B-ML", true, .doublet 12.7 10.7 (some 8.6) (some (-6.7)) (some (-29.0)) 2.5 1.4 3.1 6.35 (.glasses "N_LAK22" "N_SF6HT" 0.5876)⟩,
  -- `thorlabs.py:2751-2756`
  ⟨"AC064_015_B_ML", "AC064-015-B-ML", true, .doublet 15.0 13.1 (some 10.3) (some (-7.8)) (some (-32.9)) 2.4 1.5 3.2 6.35 (.glasses "N_LAK22" "N_SF6HT" 0.5876)⟩,
  -- `thorlabs.py:2758-2763`
  ⟨"AC080_010_B_ML", "AC080-010-B-ML", true, .doublet 10.0 7.0 (some 7.6) (some (-4.6)) (some (-30.6)) 4.5 1.3 4.4 8.0 (.glasses "N_LAK10" "N_SF6HT" 0.5876)⟩,
  -- `thorlabs.py:2765-2770`
  ⟨"AC080_016_B_ML", "AC080-016-B-ML", true, .doublet 16.0 14.0 (some 11.0) (some (-8.6)) (some (-35.8)) 2.5 1.5 3.0 8.0 (.glasses "N_LAK22" "N_SF6HT" 0.5876)⟩,
  -- `thorlabs.py:2772-2777`
  ⟨"AC080_020_B_ML", "AC080-020-B-ML", true, .doublet 20.0 18.2 (some 13.5) (some (-10.6)) (some (-47.8)) 2.3 1.3 2.8 8.0 (.glasses "N_LAK22" "N_SF6HT" 0.5876)⟩,
  -- `thorlabs.py:2779-2784`
  ⟨"AC080_030_B_ML", "AC080-030-B-ML", true, .doublet 30.0 27.7 (some 18.5) (some (-16.2)) (some (-106.0)) 2.5 1.5 3.5 8.0 (.glasses "N_LAK22" "N_SF6" 0.5876)⟩,
  -- `thorlabs.py:2786-2791`
  ⟨"AC127_019_B_ML", "AC127-019-B-ML", true, .doublet 19.0 15.5 (some 12.2) (some (-10.6)) (some (-77.4)) 4.5 1.5 3.9 12.7 (.glasses "N_BAF10" "N_SF6HT" 0.5876)⟩,
  -- `thorlabs.py:2793-2798`
  ⟨"AC127_025_B_ML", "AC127-025-B-ML", true, .doublet 25.0 21.1 (some 16.2) (some (-13.3)) (some (-68.5)) 5.0 2.0 5.4 12.7 (.glasses "N_LAK22" "N_SF6HT" 0.5876)⟩,
  -- `thorlabs.py:2800-2805`
  ⟨"AC127_030_B_ML", "AC127-030-B-ML", true, .doublet 30.0 27.3 (some 19.8) (some (-16.2)) (some (-79.8)) 3.5 1.5 3.7 12.7 (.glasses "N_LAK22" "N_SF6HT" 0.5876)⟩,
  -- `thorlabs.py:2807-2812`
  ⟨"AC127_050_B_ML", "AC127-050-B-ML", true, .doublet 50.0 46.2 (some 24.2) (some (-26.8)) (some 250.0) 3.5 1.5 4.2 12.7 (.glasses "N_BAF10" "N_SF6HT" 0.5876)⟩,
  -- `thorlabs.py:2814-2819`
  ⟨"AC127_075_B_ML", "AC127-075-B-ML", true, .doublet 75.0 72.0 (some 36.2) (some (-40.4)) (some 398.1) 2.5 1.5 3.5 12.7 (.glasses "N_BAF10" "N_SF6HT" 0.5876)⟩,
  -- `thorlabs.py:2821-2826`
  ⟨"AC254_030_B_ML", "AC254-030-B-ML", true, .doublet 30.0 23.0 (some 21.09) (some (-16.18)) (some (-79.08)) 12.0 1.5 8.2 25.4 (.glasses "N_BAF10" "N_SF6HT" 0.5876)⟩,
  -- `thorlabs.py:2828-2833`
  ⟨"AC254_035_B_ML", "AC254-035-B-ML", true, .doublet 35.0 28.4 (some 23.99) (some (-18.62)) (some (-97.27)) 10.5 1.5 7.5 25.4 (.glasses "N_BAF10" "N_SF6HT" 0.5876)⟩,
  -- `thorlabs.py:2835-2840`
  ⟨"AC254_040_B_ML", "AC254-040-B-ML", true, .doublet 40.0 32.8 (some 26.12) (some (-21.28)) (some (-137.09)) 10.0 2.5 8.6 25.4 (.glasses "N_BAF10" "N_SF6HT" 0.5876)⟩,
  -- `thorlabs.py:2842-2847`
  ⟨"AC254_045_B_ML", "AC254-045-B-ML", true, .doublet 45.0 39.6 (some 29.38) (some (-25.05)) (some (-127.06)) 7.8 1.6 5.9 25.4 (.glasses "N_LAK22" "N_SF6HT" 0.5876)⟩,
  -- `thorlabs.py:2849-2854`
  ⟨"AC254_050_B_ML", "AC254-050-B-ML", true, .doublet 50.0 45.0 (some 33.55) (some (-27.05)) (some (-125.60)) 7.5 1.8 6.2 25.4 (.glasses "N_LAK22" "N_SF6HT" 0.5876)⟩,
  -- `thorlabs.py:2856-2861`
  ⟨"AC254_060_B_ML", "AC254-060-B-ML", true, .doublet 60.0 55.8 (some 39.48) (some (-33.0)) (some (-165.20)) 6.0 1.7 5.1 25.4 (.glasses "N_LAK22" "N_SF6HT" 0.5876)⟩,
  -- `thorlabs.py:2863-2868`
  ⟨"AC254_075_B_ML", "AC254-075-B-ML", true, .doublet 75.0 69.9 (some 36.9) (some (-42.17)) (some 417.8) 5.0 1.6 4.5 25.4 (.glasses "N_BAF10" "N_SF6HT" 0.5876)⟩,
  -- `thorlabs.py:2870-2875`
  ⟨"AC254_080_B_ML", "AC254-080-B-ML", true, .doublet 80.3 73.5 (some 38.7) (some (-43.2)) (some 374.0) 6.6 2.0 6.4 25.4 (.glasses "N_BAF10" "N_SF6HT" 0.5876)⟩,
  -- `thorlabs.py:2877-2882`
  ⟨"AC254_100_B_ML", "AC254-100-B-ML", true, .doublet 100.0 97.1 (some 66.68) (some (-53.7)) (some (-259.41)) 4.0 1.5 4.0 25.4 (.glasses "N_LAK22" "N_SF6HT" 0.5876)⟩,
  -- `thorlabs.py:2884-2889`
  ⟨"AC254_125_B_ML", "AC254-125-B-ML", true, .doublet 125.0 115.4 (some 44.5) (some (-55.3)) (some 930.5) 6.0 6.0 10.0 25.4 (.glasses "N_BK7" "N_SF8" 0.5876)⟩,
  -- `thorlabs.py:2891-2896`
  ⟨"AC254_150_B_ML", "AC254-150-B-ML", true, .doublet 150.0 144.6 (some 83.6) (some (-89.33)) (some (-1330.5)) 4.0 3.5 6.5 25.4 (.glasses "N_LAK22" "N_SF6HT" 0.5876)⟩,
  -- `thorlabs.py:2898-2903`
  ⟨"AC254_200_B_ML", "AC254-200-B-ML", true, .doublet 200.0 194.8 (some 106.4) (some (-96.6)) (some 2000.0) 4.0 4.0 7.3 25.4 (.glasses "N_LAK22" "N_SF10" 0.5876)⟩,
  -- `thorlabs.py:2905-2910`
  ⟨"AC254_250_B_ML", "AC254-250-B-ML", true, .doublet 250.0 237.5 (some 52.0) (some (-65.31)) (some 111.51) 4.0 1.5 4.7 25.4 (.glasses "SF5" "N_SF6HT" 0.5876)⟩,
  -- `thorlabs.py:2912-2917`
  ⟨"AC254_300_B_ML", "AC254-300-B-ML", true, .doublet 300.0 290.0 (some 62.4) (some (-77.4)) (some 134.00) 4.0 2.0 5.3 25.4 (.glasses "SF5" "N_SF6HT" 0.5876)⟩,
  -- `thorlabs.py:2919-2924`
  ⟨"AC254_400_B_ML", "AC254-400-B-ML", true, .doublet 400.0 391.1 (some 83.6) (some (-106.41)) (some 181.55) 3.5 1.8 4.8 25.4 (.glasses "SF5" "N_SF6HT" 0.5876)⟩,
  -- `thorlabs.py:2926-2931`
  ⟨"AC254_500_B_ML", "AC254-500-B-ML", true, .doublet 500.0 480.8 (some 60.6) (some (-62.75)) (some 87.57) 4.0 2.0 5.6 25.4 (.glasses "N_SF10" "N_SF6HT" 0.5876)⟩,
  -- `thorlabs.py:2933-2938`
  ⟨"AC508_075_B_ML", "AC508-075-B-ML", true, .doublet 75.0 65.7 (some 51.8) (some (-93.1)) (some (-291.1)) 12.0 5.0 9.2 50.8 (.glasses "N_LAK22" "N_SF6HT" 0.5876)⟩,
  -- `thorlabs.py:2940-2945`
  ⟨"AC508_080_B_ML", "AC508-080-B-ML", true, .doublet 80.0 69.5 (some 51.8) (some (-44.6)) (some (-312.6)) 16.0 2.0 10.3 50.8 (.glasses "N_BAF10" "N_SF6HT" 0.5876)⟩,
  -- `thorlabs.py:2947-2952`
  ⟨"AC508_100_B_ML", "AC508-100-B-ML", true, .doublet 100.0 91.5 (some 65.8) (some (-56.0)) (some (-280.6)) 13.0 2.0 8.7 50.8 (.glasses "N_LAK22" "N_SF6HT" 0.5876)⟩,
  -- `thorlabs.py:2954-2959`
  ⟨"AC508_150_B_ML", "AC508-150-B-ML", true, .doublet 150.0 145.3 (some 112.2) (some (-95.9)) (some (-325.1)) 8.2 5.0 9.3 50.8 (.glasses "N_LAK22" "N_SF6HT" 0.5876)⟩,
  -- `thorlabs.py:2961-2966`
  ⟨"ACT508_200_B_ML", "ACT508-200-B-ML", true, .doublet 200.0 193.2 (some 121.0) (some (-118.7)) (some (-422.4)) 8.2 5.0 9.8 50.8 (.glasses "N_SK2" "N_SF57" 0.5876)⟩,
  -- `thorlabs.py:2968-2973`
  ⟨"ACT508_250_B_ML", "ACT508-250-B-ML", true, .doublet 250.0 241.8 (some 137.7) (some (-137.7)) (some (-930.4)) 8.1 6.0 11.4 50.8 (.glasses "N_SK2" "N_SF11" 0.5876)⟩,
  -- `thorlabs.py:2975-2980`
  ⟨"ACT508_300_B_ML", "ACT508-300-B-ML", true, .doublet 300.0 291.4 (some 158.1) (some (-171.1)) (some (-1529.9)) 8.0 6.0 11.8 50.8 (.glasses "N_SK2" "N_SF11" 0.5876)⟩,
  -- `thorlabs.py:2982-2987`
  ⟨"ACT508_400_B_ML", "ACT508-400-B-ML", true, .doublet 400.0 389.5 (some 189.8) (some (-152.8)) (some (-2290.9)) 8.0 6.0 12.5 50.8 (.glasses "N_SK2" "N_SF5" 0.5876)⟩,
  -- `thorlabs.py:2989-2994`
  ⟨"ACT508_500_B_ML", "ACT508-500-B-ML", true, .doublet 500.0 491.1 (some 233.8) (some (-192.8)) (some (-2471.1)) 6.0 6.0 10.8 50.8 (.glasses "N_SK2" "N_SF5" 0.5876)⟩,
  -- `thorlabs.py:2996-3001`
  ⟨"ACT508_750_B_ML", "ACT508-750-B-ML", true, .doublet 750.0 742.4 (some 386.7) (some (-269.6)) none 6.0 5.0 10.2 50.8 (.glasses "N_SK2" "N_SF5" 0.5876)⟩,
  -- `thorlabs.py:3003-3008`
  ⟨"ACT508_1000_B_ML", "ACT508-1000-B-ML", true, .doublet 1000.0 991.1 (some 465.2) (some (-388.7)) (some (-4726.2)) 6.0 6.0 11.4 50.8 (.glasses "N_SK2" "N_SF5" 0.5876)⟩,
  -- `thorlabs.py:3010-3015`
  ⟨"AC050_008_C_ML", "AC050-008-C-ML", true, .doublet 7.5 5.2 (some 4.6) (some (-3.9)) (some (-23.9)) 2.5 1.5 3.1 5.0 (.glasses "N_LAK22" "N_SF6HT" 0.5876)⟩]

/-- `thorlabs.py:3017` to `eo.py:105`. -/
def catalogue6 : List CatLens := [
  -- `thorlabs.py:3017-3022`
  ⟨"AC050_010_C_ML", "AC050-010-C-ML", true, .doublet 10.0 6.9 (some 4.6) (some (-4.6)) (some 36.0) 2.5 1.5 3.3 5.0 (.glasses "N_LAK22" "N_SF6HT" 0.5876)⟩,
  -- `thorlabs.py:3024-3029`
  ⟨"AC050_015_C_ML", "AC050-015-C-ML", true, .doublet 15.0 11.6 (some 5.3) (some (-5.5)) (some 15.2) 2.0 1.3 2.9 5.0 (.glasses "N_BAF10" "N_SF6HT" 0.5876)⟩,
  -- `thorlabs.py:3031-3036`
  ⟨"AC060_010_C_ML", "AC060-010-C-ML", true, .doublet 10.0 8.5 (some 10.4) (some (-3.6)) (some (-9.2)) 3.5 1.3 3.9 6.0 (.glasses "N_LAK22" "N_SF6HT" 0.5876)⟩,
  -- `thorlabs.py:3038-3043`
  ⟨"AC064_013_C_ML", "AC064-013-C-ML", true, .doublet 12.7 11.4 (some 13.2) (some (-4.9)) (some (-12.4)) 2.8 1.3 3.3 6.35 (.glasses "N_LAK22" "N_SF6HT" 0.5876)⟩,
  -- `thorlabs.py:3045-3050`
  ⟨"AC064_015_C_ML", "AC064-015-C-ML", true, .doublet 15.0 14.4 (some 22.7) (some (-4.9)) (some (-11.3)) 2.3 1.3 2.9 6.35 (.glasses "N_LAK22" "N_SF6HT" 0.5876)⟩,
  -- `thorlabs.py:3052-3057`
  ⟨"AC080_010_C_ML", "AC080-010-C-ML", true, .doublet 10.0 7.2 (some 7.1) (some (-4.9)) (some (-20.0)) 4.2 1.3 3.9 8.0 (.glasses "N_BAF10" "N_SF6HT" 0.5876)⟩,
  -- `thorlabs.py:3059-3064`
  ⟨"AC080_016_C_ML", "AC080-016-C-ML", true, .doublet 16.0 12.3 (some 7.5) (some (-7.8)) (some 68.5) 3.5 1.3 3.8 8.0 (.glasses "N_LAK22" "N_SF6HT" 0.5876)⟩,
  -- `thorlabs.py:3066-3071`
  ⟨"AC080_020_C_ML", "AC080-020-C-ML", true, .doublet 20.0 15.7 (some 7.8) (some (-8.6)) (some 31.9) 3.3 1.3 3.7 8.0 (.glasses "N_LAK22" "N_SF6HT" 0.5876)⟩,
  -- `thorlabs.py:3073-3078`
  ⟨"AC080_030_C_ML", "AC080-030-C-ML", true, .doublet 30.0 27.3 (some 12.3) (some (-16.0)) (some (-70.4)) 2.3 2.3 3.7 8.0 (.glasses "N_PK52A" "N_SF6" 0.5876)⟩,
  -- `thorlabs.py:3080-3085`
  ⟨"AC127_019_C_ML", "AC127-019-C-ML", true, .doublet 19.0 15.4 (some 12.4) (some (-10.0)) (some (-48.8)) 5.0 1.5 4.3 12.7 (.glasses "N_LAK22" "N_SF6" 0.5876)⟩,
  -- `thorlabs.py:3087-3092`
  ⟨"AC127_025_C_ML", "AC127-025-C-ML", true, .doublet 25.0 20.3 (some 12.0) (some (-12.9)) (some 151.7) 4.7 1.5 4.5 12.7 (.glasses "N_LAK22" "N_SF6HT" 0.5876)⟩,
  -- `thorlabs.py:3094-3099`
  ⟨"AC127_030_C_ML", "AC127-030-C-ML", true, .doublet 30.0 24.5 (some 12.4) (some (-14.0)) (some 65.3) 4.7 1.5 4.8 12.7 (.glasses "N_LAK22" "N_SF6HT" 0.5876)⟩,
  -- `thorlabs.py:3101-3106`
  ⟨"AC127_050_C_ML", "AC127-050-C-ML", true, .doublet 50.0 43.5 (some 16.0) (some (-18.4)) (some 44.6) 4.0 1.5 4.6 12.7 (.glasses "N_BAF10" "N_SF6HT" 0.5876)⟩,
  -- `thorlabs.py:3108-3113`
  ⟨"AC127_075_C_ML", "AC127-075-C-ML", true, .doublet 75.0 69.8 (some 23.2) (some (-27.9)) (some 66.7) 3.0 1.5 3.9 12.7 (.glasses "N_BAF10" "N_SF6HT" 0.5876)⟩,
  -- `thorlabs.py:3115-3120`
  ⟨"AC254_030_C_ML", "AC254-030-C-ML", true, .doublet 30.0 22.2 (some 21.1) (some (-15.2)) (some (-71.1)) 13.0 1.8 9.4 25.4 (.glasses "N_BAF10" "N_SF6HT" 0.5876)⟩,
  -- `thorlabs.py:3122-3127`
  ⟨"AC254_035_C_ML", "AC254-035-C-ML", true, .doublet 35.0 27.4 (some 23.2) (some (-17.9)) (some (-105.2)) 11.5 1.8 8.7 25.4 (.glasses "N_BAF10" "N_SF6HT" 0.5876)⟩,
  -- `thorlabs.py:3129-3134`
  ⟨"AC254_040_C_ML", "AC254-040-C-ML", true, .doublet 40.0 32.8 (some 24.4) (some (-21.1)) (some (-143.9)) 10.0 1.8 7.7 25.4 (.glasses "N_LAK22" "N_SF6HT" 0.5876)⟩,
  -- `thorlabs.py:3136-3141`
  ⟨"AC254_045_C_ML", "AC254-045-C-ML", true, .doublet 45.0 36.7 (some 22.9) (some (-23.7)) (some 900.0) 9.6 1.8 7.7 25.4 (.glasses "N_LAK22" "N_SF6HT" 0.5876)⟩,
  -- `thorlabs.py:3143-3148`
  ⟨"AC254_050_C_ML", "AC254-050-C-ML", true, .doublet 50.0 41.2 (some 22.9) (some (-25.9)) (some 194.5) 9.0 1.8 7.4 25.4 (.glasses "N_LAK22" "N_SF6HT" 0.5876)⟩,
  -- `thorlabs.py:3150-3155`
  ⟨"AC254_060_C_ML", "AC254-060-C-ML", true, .doublet 60.0 50.5 (some 23.9) (some (-28.1)) (some 112.1) 8.3 1.8 7.2 25.4 (.glasses "N_LAK22" "N_SF6HT" 0.5876)⟩,
  -- `thorlabs.py:3157-3162`
  ⟨"AC254_075_C_ML", "AC254-075-C-ML", true, .doublet 75.0 64.9 (some 26.4) (some (-29.4)) (some 84.9) 7.6 1.8 7.1 25.4 (.glasses "N_BAF10" "N_SF6HT" 0.5876)⟩,
  -- `thorlabs.py:3164-3169`
  ⟨"AC254_100_C_ML", "AC254-100-C-ML", true, .doublet 100.0 90.3 (some 32.1) (some (-38.0)) (some 93.5) 6.5 1.8 6.6 25.4 (.glasses "N_BAF10" "N_SF6HT" 0.5876)⟩,
  -- `thorlabs.py:3171-3176`
  ⟨"AC254_150_C_ML", "AC254-150-C-ML", true, .doublet 150.0 140.8 (some 42.7) (some (-52.0)) (some 111.5) 5.0 2.5 6.3 25.4 (.glasses "N_BAF10" "N_SF6HT" 0.5876)⟩,
  -- `thorlabs.py:3178-3183`
  ⟨"AC254_200_C_ML", "AC254-200-C-ML", true, .doublet 200.0 193.1 (some 70.0) (some (-95.9)) (some 274.3) 4.0 3.0 6.1 25.4 (.glasses "N_LAK22" "N_SF6HT" 0.5876)⟩,
  -- `thorlabs.py:3185-3190`
  ⟨"AC254_250_C_ML", "AC254-250-C-ML", true, .doublet 250.0 235.2 (some 44.0) (some (-57.7)) (some 93.1) 4.5 2.5 6.0 25.4 (.glasses "SF2" "N_SF6HT" 0.5876)⟩,
  -- `thorlabs.py:3192-3197`
  ⟨"AC254_300_C_ML", "AC254-300-C-ML", true, .doublet 300.0 285.8 (some 52.5) (some (-68.5)) (some 112.2) 4.5 2.5 6.2 25.4 (.glasses "SF2" "N_SF6HT" 0.5876)⟩,
  -- `thorlabs.py:3199-3204`
  ⟨"AC254_400_C_ML", "AC254-400-C-ML", true, .doublet 400.0 386.8 (some 70.0) (some (-93.1)) (some 151.4) 4.2 2.5 6.1 25.4 (.glasses "SF2" "N_SF6HT" 0.5876)⟩,
  -- `thorlabs.py:3206-3211`
  ⟨"AC254_500_C_ML", "AC254-500-C-ML", true, .doublet 500.0 486.7 (some 87.9) (some (-115.5)) (some 194.5) 3.5 2.0 5.0 25.4 (.glasses "SF2" "N_SF6HT" 0.5876)⟩,
  -- `thorlabs.py:3213-3218`
  ⟨"AC508_075_C_ML", "AC508-075-C-ML", true, .doublet 75.0 63.0 (some 49.9) (some (-39.1)) (some (-230.7)) 19.0 2.5 13.1 50.8 (.glasses "N_BAF10" "N_SF6HT" 0.5876)⟩,
  -- `thorlabs.py:3220-3225`
  ⟨"AC508_080_C_ML", "AC508-080-C-ML", true, .doublet 80.0 66.9 (some 47.2) (some (-43.2)) (some (-640.7)) 18.0 2.5 12.6 50.8 (.glasses "N_BAF10" "N_SF6HT" 0.5876)⟩,
  -- `thorlabs.py:3227-3232`
  ⟨"AC508_100_C_ML", "AC508-100-C-ML", true, .doublet 100.0 83.0 (some 44.7) (some (-48.3)) (some 259.4) 17.0 2.5 12.8 50.8 (.glasses "N_BAF10" "N_SF6HT" 0.5876)⟩,
  -- `thorlabs.py:3234-3239`
  ⟨"AC508_150_C_ML", "AC508-150-C-ML", true, .doublet 150.0 117.7 (some 39.5) (some (-49.9)) (some 83.6) 18.0 5.0 17.7 50.8 (.glasses "N_LAK22" "N_SF6HT" 0.5876)⟩,
  -- `thorlabs.py:3241-3246`
  ⟨"AC508_200_C_ML", "AC508-200-C-ML", true, .doublet 200.0 182.7 (some 67.1) (some (-87.6)) (some 234.3) 12.0 3.0 11.4 50.8 (.glasses "N_LAK22" "N_SF6HT" 0.5876)⟩,
  -- `thorlabs.py:3248-3253`
  ⟨"ACT508_250_C_ML", "ACT508-250-C-ML", true, .doublet 250.0 235.7 (some 104.7) (some (-110.1)) (some 349.5) 10.0 5.0 12.8 50.8 (.glasses "H_LAF3B" "H_ZF52GT" 0.5876)⟩,
  -- `thorlabs.py:3255-3260`
  ⟨"ACT508_300_C_ML", "ACT508-300-C-ML", true, .doublet 300.0 290.8 (some 199.7) (some (-91.4)) none 10.0 5.0 13.4 50.8 (.glasses "H_LAF3B" "H_ZF13" 0.5876)⟩,
  -- `thorlabs.py:3262-3267`
  ⟨"ACT508_400_C_ML", "ACT508-400-C-ML", true, .doublet 400.0 389.7 (some 228.7) (some (-64.9)) none 10.0 6.0 14.6 50.8 (.glasses "H_ZK50" "H_F4" 0.5876)⟩,
  -- `thorlabs.py:3269-3274`
  ⟨"AC508_500_C_ML", "AC508-500-C-ML", true, .doublet 500.0 474.3 (some 86.1) (some (-103.2)) (some 166.0) 8.8 3.0 9.9 50.8 (.glasses "SF5" "N_SF6HT" 0.5876)⟩,
  -- `thorlabs.py:3283-3288`
  ⟨"AC508_1000_C_ML", "AC508-1000-C-ML", true, .doublet 1000.0 990.3 (some 173.0) (some (-234.3)) (some 336.0) 6.0 3.0 8.1 50.8 (.glasses "SF5" "N_SF6HT" 0.5876)⟩,
  -- `eo.py:3-27`
  ⟨"PN_33_921", "EO #33-921", false, .doublet 100.00 78.32 (some 64.67) (some (-64.67)) (some (-343.59)) 26.00 12.7 24.66 75 (.given 1.6700 1.8467)⟩,
  -- `eo.py:29-54`
  ⟨"PN_33_922", "EO #33-922", false, .doublet 150.00 126.46 (some 92.05) (some (-72.85)) (some (-305.87)) 23.2 23.1 36.01 75 (.glasses "N_BAK1" "N_SF8" 0.5876)⟩,
  -- `eo.py:56-79`
  ⟨"PN_88_593", "EO #88-593", false, .doublet 200.00 187.69 (some 118.81) (some (-96.37)) (some (-288.97)) 17.94 6.00 15.42 75 (.given 1.5168 1.6727)⟩,
  -- `eo.py:81-105`
  ⟨"PN_85_877", "EO #85-877", false, .doublet (-10.0) (-11.92) (some (-6.55)) (some 5.10) (some 89.10) 1.0 2.5 4.2 6.25 (.glasses "N_BAF10" "N_SF10" 0.5876)⟩]

/-- All the classes of lenses, in the order of the files `thorlabs.py`, `eo.py`. -/
def catalogue : List CatLens :=
  catalogue1 ++ catalogue2 ++ catalogue3 ++ catalogue4 ++ catalogue5 ++ catalogue6

/-- The class of a name after the import: the last one of the file. -/
def lensNamed (name : String) : Option CatLens := catalogue.reverse.find? fun l => l.name == name

end RT
