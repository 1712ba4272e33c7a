/-! # Direction-number table, rows 0 to 1865

Generated from `src/SALib/sample/directions.py` lines 2-1867.  One row per line: a leading 1, then
every number of the row padded to six digits (so the row `(7, 1, 1, 7, 11, 19)` is
`1_000007_000001_000001_000007_000011_000019`).  Rows are grouped by the number `s` of initial numbers. -/

namespace SALib.Data

def dirRows1_0_0 : List Nat := [
  1_000000_000001]

/-- Rows with 1 initial numbers, part 0. -/
def dir1_0 : List (List Nat) := [
  dirRows1_0_0]

def dirRows2_0_0 : List Nat := [
  1_000001_000001_000003]

/-- Rows with 2 initial numbers, part 0. -/
def dir2_0 : List (List Nat) := [
  dirRows2_0_0]

def dirRows3_0_0 : List Nat := [
  1_000001_000001_000003_000001,
  1_000002_000001_000001_000001]

/-- Rows with 3 initial numbers, part 0. -/
def dir3_0 : List (List Nat) := [
  dirRows3_0_0]

def dirRows4_0_0 : List Nat := [
  1_000001_000001_000001_000003_000003,
  1_000004_000001_000003_000005_000013]

/-- Rows with 4 initial numbers, part 0. -/
def dir4_0 : List (List Nat) := [
  dirRows4_0_0]

def dirRows5_0_0 : List Nat := [
  1_000002_000001_000001_000005_000005_000017,
  1_000004_000001_000001_000005_000005_000005,
  1_000007_000001_000001_000007_000011_000019,
  1_000011_000001_000001_000005_000001_000001,
  1_000013_000001_000001_000001_000003_000011,
  1_000014_000001_000003_000005_000005_000031]

/-- Rows with 5 initial numbers, part 0. -/
def dir5_0 : List (List Nat) := [
  dirRows5_0_0]

def dirRows6_0_0 : List Nat := [
  1_000001_000001_000003_000003_000009_000007_000049,
  1_000013_000001_000001_000001_000015_000021_000021,
  1_000016_000001_000003_000001_000013_000027_000049,
  1_000019_000001_000001_000001_000015_000007_000005,
  1_000022_000001_000003_000001_000015_000013_000025,
  1_000025_000001_000001_000005_000005_000019_000061]

/-- Rows with 6 initial numbers, part 0. -/
def dir6_0 : List (List Nat) := [
  dirRows6_0_0]

def dirRows7_0_0 : List Nat := [
  1_000001_000001_000003_000007_000011_000023_000015_000103,
  1_000004_000001_000003_000007_000013_000013_000015_000069,
  1_000007_000001_000001_000003_000013_000007_000035_000063,
  1_000008_000001_000003_000005_000009_000001_000025_000053,
  1_000014_000001_000003_000001_000013_000009_000035_000107,
  1_000019_000001_000003_000001_000005_000027_000061_000031,
  1_000021_000001_000001_000005_000011_000019_000041_000061,
  1_000028_000001_000003_000005_000003_000003_000013_000069,
  1_000031_000001_000001_000007_000013_000001_000019_000001,
  1_000032_000001_000003_000007_000005_000013_000019_000059,
  1_000037_000001_000001_000003_000009_000025_000029_000041,
  1_000041_000001_000003_000005_000013_000023_000001_000055,
  1_000042_000001_000003_000007_000003_000013_000059_000017,
  1_000050_000001_000003_000001_000003_000005_000053_000069,
  1_000055_000001_000001_000005_000005_000023_000033_000013,
  1_000056_000001_000001_000007_000007_000001_000061_000123,
  1_000059_000001_000001_000007_000009_000013_000061_000049,
  1_000062_000001_000003_000003_000005_000003_000055_000033]

/-- Rows with 7 initial numbers, part 0. -/
def dir7_0 : List (List Nat) := [
  dirRows7_0_0]

def dirRows8_0_0 : List Nat := [
  1_000014_000001_000003_000001_000015_000031_000013_000049_000245,
  1_000021_000001_000003_000005_000015_000031_000059_000063_000097,
  1_000022_000001_000003_000001_000011_000011_000011_000077_000249,
  1_000038_000001_000003_000001_000011_000027_000043_000071_000009,
  1_000047_000001_000001_000007_000015_000021_000011_000081_000045,
  1_000049_000001_000003_000007_000003_000025_000031_000065_000079,
  1_000050_000001_000003_000001_000001_000019_000011_000003_000205,
  1_000052_000001_000001_000005_000009_000019_000021_000029_000157,
  1_000056_000001_000003_000007_000011_000001_000033_000089_000185,
  1_000067_000001_000003_000003_000003_000015_000009_000079_000071,
  1_000070_000001_000003_000007_000011_000015_000039_000119_000027,
  1_000084_000001_000001_000003_000001_000011_000031_000097_000225,
  1_000097_000001_000001_000001_000003_000023_000043_000057_000177,
  1_000103_000001_000003_000007_000007_000017_000017_000037_000071,
  1_000115_000001_000003_000001_000005_000027_000063_000123_000213,
  1_000122_000001_000001_000003_000005_000011_000043_000053_000133]

/-- Rows with 8 initial numbers, part 0. -/
def dir8_0 : List (List Nat) := [
  dirRows8_0_0]

def dirRows9_0_0 : List Nat := [
  1_000008_000001_000003_000005_000005_000029_000017_000047_000173_000479,
  1_000013_000001_000003_000003_000011_000003_000001_000109_000009_000069,
  1_000016_000001_000001_000001_000005_000017_000039_000023_000005_000343,
  1_000022_000001_000003_000001_000005_000025_000015_000031_000103_000499,
  1_000025_000001_000001_000001_000011_000011_000017_000063_000105_000183,
  1_000044_000001_000001_000005_000011_000009_000029_000097_000231_000363,
  1_000047_000001_000001_000005_000015_000019_000045_000041_000007_000383,
  1_000052_000001_000003_000007_000007_000031_000019_000083_000137_000221,
  1_000055_000001_000001_000001_000003_000023_000015_000111_000223_000083,
  1_000059_000001_000001_000005_000013_000031_000015_000055_000025_000161,
  1_000062_000001_000001_000003_000013_000025_000047_000039_000087_000257,
  1_000067_000001_000001_000001_000011_000021_000053_000125_000249_000293,
  1_000074_000001_000001_000007_000011_000011_000007_000057_000079_000323,
  1_000081_000001_000001_000005_000005_000017_000013_000081_000003_000131,
  1_000082_000001_000001_000007_000013_000023_000007_000065_000251_000475,
  1_000087_000001_000003_000005_000001_000009_000043_000003_000149_000011,
  1_000091_000001_000001_000003_000013_000031_000013_000013_000255_000487,
  1_000094_000001_000003_000003_000001_000005_000063_000089_000091_000127,
  1_000103_000001_000001_000003_000003_000001_000019_000123_000127_000237,
  1_000104_000001_000001_000005_000007_000023_000031_000037_000243_000289,
  1_000109_000001_000001_000005_000011_000017_000053_000117_000183_000491,
  1_000122_000001_000001_000001_000005_000001_000013_000013_000209_000345,
  1_000124_000001_000001_000003_000015_000001_000057_000115_000007_000033,
  1_000137_000001_000003_000001_000011_000007_000043_000081_000207_000175,
  1_000138_000001_000003_000001_000001_000015_000027_000063_000255_000049,
  1_000143_000001_000003_000005_000003_000027_000061_000105_000171_000305,
  1_000145_000001_000001_000005_000003_000001_000003_000057_000249_000149,
  1_000152_000001_000001_000003_000005_000005_000057_000015_000013_000159,
  1_000157_000001_000001_000001_000011_000007_000011_000105_000141_000225,
  1_000167_000001_000003_000003_000005_000027_000059_000121_000101_000271,
  1_000173_000001_000003_000005_000009_000011_000049_000051_000059_000115,
  1_000176_000001_000001_000007_000001_000023_000045_000125_000071_000419,
  1_000181_000001_000001_000003_000005_000023_000005_000105_000109_000075,
  1_000182_000001_000001_000007_000015_000007_000011_000067_000121_000453,
  1_000185_000001_000003_000007_000003_000009_000013_000031_000027_000449,
  1_000191_000001_000003_000001_000015_000019_000039_000039_000089_000015,
  1_000194_000001_000001_000001_000001_000001_000033_000073_000145_000379,
  1_000199_000001_000003_000001_000015_000015_000043_000029_000013_000483,
  1_000218_000001_000001_000007_000003_000019_000027_000085_000131_000431,
  1_000220_000001_000003_000003_000003_000005_000035_000023_000195_000349,
  1_000227_000001_000003_000003_000007_000009_000027_000039_000059_000297,
  1_000229_000001_000001_000003_000009_000011_000017_000013_000241_000157,
  1_000230_000001_000003_000007_000015_000025_000057_000033_000189_000213,
  1_000234_000001_000001_000007_000001_000009_000055_000073_000083_000217,
  1_000236_000001_000003_000003_000013_000019_000027_000023_000113_000249,
  1_000241_000001_000003_000005_000003_000023_000043_000003_000253_000479,
  1_000244_000001_000001_000005_000005_000011_000005_000045_000117_000217,
  1_000253_000001_000003_000003_000007_000029_000037_000033_000123_000147]

/-- Rows with 9 initial numbers, part 0. -/
def dir9_0 : List (List Nat) := [
  dirRows9_0_0]

def dirRows10_0_0 : List Nat := [
  1_000004_000001_000003_000001_000015_000005_000005_000037_000227_000223_000459,
  1_000013_000001_000001_000007_000005_000005_000039_000063_000255_000135_000487,
  1_000019_000001_000003_000001_000007_000009_000007_000087_000249_000217_000599,
  1_000022_000001_000001_000003_000013_000009_000047_000007_000225_000363_000247,
  1_000050_000001_000003_000007_000013_000019_000013_000009_000067_000009_000737,
  1_000055_000001_000003_000005_000005_000019_000059_000007_000041_000319_000677,
  1_000064_000001_000001_000005_000003_000031_000063_000015_000043_000207_000789,
  1_000069_000001_000001_000007_000009_000013_000039_000003_000047_000497_000169,
  1_000098_000001_000003_000001_000007_000021_000017_000097_000019_000415_000905,
  1_000107_000001_000003_000007_000001_000003_000031_000071_000111_000165_000127,
  1_000115_000001_000001_000005_000011_000001_000061_000083_000119_000203_000847,
  1_000121_000001_000003_000003_000013_000009_000061_000019_000097_000047_000035,
  1_000127_000001_000001_000007_000007_000015_000029_000063_000095_000417_000469,
  1_000134_000001_000003_000001_000009_000025_000009_000071_000057_000213_000385,
  1_000140_000001_000003_000005_000013_000031_000047_000101_000057_000039_000341,
  1_000145_000001_000001_000003_000003_000031_000057_000125_000173_000365_000551,
  1_000152_000001_000003_000007_000001_000013_000057_000067_000157_000451_000707,
  1_000158_000001_000001_000001_000007_000021_000013_000105_000089_000429_000965,
  1_000161_000001_000001_000005_000009_000017_000051_000045_000119_000157_000141,
  1_000171_000001_000003_000007_000007_000013_000045_000091_000009_000129_000741,
  1_000181_000001_000003_000007_000001_000023_000057_000067_000141_000151_000571,
  1_000194_000001_000001_000003_000011_000017_000047_000093_000107_000375_000157,
  1_000199_000001_000003_000003_000005_000011_000021_000043_000051_000169_000915,
  1_000203_000001_000001_000005_000003_000015_000055_000101_000067_000455_000625,
  1_000208_000001_000003_000005_000009_000001_000023_000029_000047_000345_000595,
  1_000227_000001_000003_000007_000007_000005_000049_000029_000155_000323_000589,
  1_000242_000001_000003_000003_000007_000005_000041_000127_000061_000261_000717,
  1_000251_000001_000003_000007_000007_000017_000023_000117_000067_000129_001009,
  1_000253_000001_000001_000003_000013_000011_000039_000021_000207_000123_000305,
  1_000265_000001_000001_000003_000009_000029_000003_000095_000047_000231_000073,
  1_000266_000001_000003_000001_000009_000001_000029_000117_000021_000441_000259,
  1_000274_000001_000003_000001_000013_000021_000039_000125_000211_000439_000723,
  1_000283_000001_000001_000007_000003_000017_000063_000115_000089_000049_000773,
  1_000289_000001_000003_000007_000013_000011_000033_000101_000107_000063_000073,
  1_000295_000001_000001_000005_000005_000013_000057_000063_000135_000437_000177,
  1_000301_000001_000001_000003_000007_000027_000063_000093_000047_000417_000483,
  1_000316_000001_000001_000003_000001_000023_000029_000001_000191_000049_000023,
  1_000319_000001_000001_000003_000015_000025_000055_000009_000101_000219_000607,
  1_000324_000001_000003_000001_000007_000007_000019_000051_000251_000393_000307,
  1_000346_000001_000003_000003_000003_000025_000055_000017_000075_000337_000003,
  1_000352_000001_000001_000001_000013_000025_000017_000065_000045_000479_000413,
  1_000361_000001_000001_000007_000007_000027_000049_000099_000161_000213_000727,
  1_000367_000001_000003_000005_000001_000023_000005_000043_000041_000251_000857,
  1_000382_000001_000003_000003_000007_000011_000061_000039_000087_000383_000835,
  1_000395_000001_000001_000003_000015_000013_000007_000029_000007_000505_000923,
  1_000398_000001_000003_000007_000001_000005_000031_000047_000157_000445_000501,
  1_000400_000001_000001_000003_000007_000001_000043_000009_000147_000115_000605,
  1_000412_000001_000003_000003_000013_000005_000001_000119_000211_000455_001001,
  1_000419_000001_000001_000003_000005_000013_000019_000003_000243_000075_000843,
  1_000422_000001_000003_000007_000007_000001_000019_000091_000249_000357_000589,
  1_000426_000001_000001_000001_000009_000001_000025_000109_000197_000279_000411,
  1_000428_000001_000003_000001_000015_000023_000057_000059_000135_000191_000075,
  1_000433_000001_000001_000005_000015_000029_000021_000039_000253_000383_000349,
  1_000446_000001_000003_000003_000005_000019_000045_000061_000151_000199_000981,
  1_000454_000001_000003_000005_000013_000009_000061_000107_000141_000141_000001,
  1_000457_000001_000003_000001_000011_000027_000025_000085_000105_000309_000979,
  1_000472_000001_000003_000003_000011_000019_000007_000115_000223_000349_000043,
  1_000493_000001_000001_000007_000009_000021_000039_000123_000021_000275_000927,
  1_000505_000001_000001_000007_000013_000015_000041_000047_000243_000303_000437,
  1_000508_000001_000001_000001_000007_000007_000003_000015_000099_000409_000719]

/-- Rows with 10 initial numbers, part 0. -/
def dir10_0 : List (List Nat) := [
  dirRows10_0_0]

def dirRows11_0_0 : List Nat := [
  1_000002_000001_000003_000003_000015_000027_000049_000113_000123_000113_000067_000469,
  1_000011_000001_000003_000007_000011_000003_000023_000087_000169_000119_000483_000199,
  1_000021_000001_000001_000005_000015_000007_000017_000109_000229_000179_000213_000741,
  1_000022_000001_000001_000005_000013_000011_000017_000025_000135_000403_000557_001433,
  1_000035_000001_000003_000001_000001_000001_000061_000067_000215_000189_000945_001243,
  1_000049_000001_000001_000007_000013_000017_000033_000009_000221_000429_000217_001679,
  1_000050_000001_000001_000003_000011_000027_000003_000015_000093_000093_000865_001049,
  1_000056_000001_000003_000007_000007_000025_000041_000121_000035_000373_000379_001547,
  1_000061_000001_000003_000003_000009_000011_000035_000045_000205_000241_000009_000059,
  1_000070_000001_000003_000001_000007_000003_000051_000007_000177_000053_000975_000089,
  1_000074_000001_000001_000003_000005_000027_000001_000113_000231_000299_000759_000861,
  1_000079_000001_000003_000003_000015_000025_000029_000005_000255_000139_000891_002031,
  1_000084_000001_000003_000001_000001_000013_000009_000109_000193_000419_000095_000017,
  1_000088_000001_000001_000007_000009_000003_000007_000029_000041_000135_000839_000867,
  1_000103_000001_000001_000007_000009_000025_000049_000123_000217_000113_000909_000215,
  1_000104_000001_000001_000007_000003_000023_000015_000043_000133_000217_000327_000901,
  1_000112_000001_000001_000003_000003_000013_000053_000063_000123_000477_000711_001387,
  1_000115_000001_000001_000003_000015_000007_000029_000075_000119_000181_000957_000247,
  1_000117_000001_000001_000001_000011_000027_000025_000109_000151_000267_000099_001461,
  1_000122_000001_000003_000007_000015_000005_000005_000053_000145_000011_000725_001501,
  1_000134_000001_000003_000007_000001_000009_000043_000071_000229_000157_000607_001835,
  1_000137_000001_000003_000003_000013_000025_000001_000005_000027_000471_000349_000127,
  1_000146_000001_000001_000001_000001_000023_000037_000009_000221_000269_000897_001685,
  1_000148_000001_000001_000003_000003_000031_000029_000051_000019_000311_000553_001969,
  1_000157_000001_000003_000007_000005_000005_000055_000017_000039_000475_000671_001529,
  1_000158_000001_000001_000007_000001_000001_000035_000047_000027_000437_000395_001635,
  1_000162_000001_000001_000007_000003_000013_000023_000043_000135_000327_000139_000389,
  1_000164_000001_000003_000007_000003_000009_000025_000091_000025_000429_000219_000513,
  1_000168_000001_000001_000003_000005_000013_000029_000119_000201_000277_000157_002043,
  1_000173_000001_000003_000005_000003_000029_000057_000013_000017_000167_000739_001031,
  1_000185_000001_000003_000003_000005_000029_000021_000095_000027_000255_000679_001531,
  1_000186_000001_000003_000007_000015_000009_000005_000021_000071_000061_000961_001201,
  1_000191_000001_000003_000005_000013_000015_000057_000033_000093_000459_000867_000223,
  1_000193_000001_000001_000001_000015_000017_000043_000127_000191_000067_000177_001073,
  1_000199_000001_000001_000001_000015_000023_000007_000021_000199_000075_000293_001611,
  1_000213_000001_000003_000007_000013_000015_000039_000021_000149_000065_000741_000319,
  1_000214_000001_000003_000007_000011_000023_000013_000101_000089_000277_000519_000711,
  1_000220_000001_000003_000007_000015_000019_000027_000085_000203_000441_000097_001895,
  1_000227_000001_000003_000001_000003_000029_000025_000021_000155_000011_000191_000197,
  1_000236_000001_000001_000007_000005_000027_000011_000081_000101_000457_000675_001687,
  1_000242_000001_000003_000001_000005_000025_000005_000065_000193_000041_000567_000781,
  1_000251_000001_000003_000001_000005_000011_000015_000113_000077_000411_000695_001111,
  1_000256_000001_000001_000003_000009_000011_000053_000119_000171_000055_000297_000509,
  1_000259_000001_000001_000001_000001_000011_000039_000113_000139_000165_000347_000595,
  1_000265_000001_000003_000007_000011_000009_000017_000101_000013_000081_000325_001733,
  1_000266_000001_000003_000001_000001_000021_000043_000115_000009_000113_000907_000645,
  1_000276_000001_000001_000007_000003_000009_000025_000117_000197_000159_000471_000475,
  1_000292_000001_000003_000001_000009_000011_000021_000057_000207_000485_000613_001661,
  1_000304_000001_000001_000007_000007_000027_000055_000049_000223_000089_000085_001523,
  1_000310_000001_000001_000005_000003_000019_000041_000045_000051_000447_000299_001355,
  1_000316_000001_000003_000001_000013_000001_000033_000117_000143_000313_000187_001073,
  1_000319_000001_000001_000007_000007_000005_000011_000065_000097_000377_000377_001501,
  1_000322_000001_000003_000001_000001_000021_000035_000095_000065_000099_000023_001239,
  1_000328_000001_000001_000005_000009_000003_000037_000095_000167_000115_000425_000867,
  1_000334_000001_000003_000003_000013_000001_000037_000027_000189_000081_000679_000773,
  1_000339_000001_000001_000003_000011_000001_000061_000099_000233_000429_000969_000049,
  1_000341_000001_000001_000001_000007_000025_000063_000099_000165_000245_000793_001143,
  1_000345_000001_000001_000005_000011_000011_000043_000055_000065_000071_000283_000273,
  1_000346_000001_000001_000005_000005_000009_000003_000101_000251_000355_000379_001611,
  1_000362_000001_000001_000001_000015_000021_000063_000085_000099_000049_000749_001335,
  1_000367_000001_000001_000005_000013_000027_000009_000121_000043_000255_000715_000289,
  1_000372_000001_000003_000001_000005_000027_000019_000017_000223_000077_000571_001415,
  1_000375_000001_000001_000005_000003_000013_000059_000125_000251_000195_000551_001737,
  1_000376_000001_000003_000003_000015_000013_000027_000049_000105_000389_000971_000755,
  1_000381_000001_000003_000005_000015_000023_000043_000035_000107_000447_000763_000253,
  1_000385_000001_000003_000005_000011_000021_000003_000017_000039_000497_000407_000611,
  1_000388_000001_000001_000007_000013_000015_000031_000113_000017_000023_000507_001995,
  1_000392_000001_000001_000007_000015_000003_000015_000031_000153_000423_000079_000503,
  1_000409_000001_000001_000007_000009_000019_000025_000023_000171_000505_000923_001989,
  1_000415_000001_000001_000005_000009_000021_000027_000121_000223_000133_000087_000697,
  1_000416_000001_000001_000005_000005_000009_000019_000107_000099_000319_000765_001461,
  1_000421_000001_000001_000003_000003_000019_000025_000003_000101_000171_000729_000187,
  1_000428_000001_000001_000003_000001_000013_000023_000085_000093_000291_000209_000037,
  1_000431_000001_000001_000001_000015_000025_000025_000077_000253_000333_000947_001073,
  1_000434_000001_000001_000003_000009_000017_000029_000055_000047_000255_000305_002037,
  1_000439_000001_000003_000003_000009_000029_000063_000009_000103_000489_000939_001523,
  1_000446_000001_000003_000007_000015_000007_000031_000089_000175_000369_000339_000595,
  1_000451_000001_000003_000007_000013_000025_000005_000071_000207_000251_000367_000665,
  1_000453_000001_000003_000003_000003_000021_000025_000075_000035_000031_000321_001603,
  1_000457_000001_000001_000001_000009_000011_000001_000065_000005_000011_000329_000535,
  1_000458_000001_000001_000005_000003_000019_000013_000017_000043_000379_000485_000383,
  1_000471_000001_000003_000005_000013_000013_000009_000085_000147_000489_000787_001133,
  1_000475_000001_000003_000001_000001_000005_000051_000037_000129_000195_000297_001783,
  1_000478_000001_000001_000003_000015_000019_000057_000059_000181_000455_000697_002033,
  1_000484_000001_000003_000007_000001_000027_000009_000065_000145_000325_000189_000201,
  1_000493_000001_000003_000001_000015_000031_000023_000019_000005_000485_000581_000539,
  1_000494_000001_000001_000007_000013_000011_000015_000065_000083_000185_000847_000831,
  1_000499_000001_000003_000005_000007_000007_000055_000073_000015_000303_000511_001905,
  1_000502_000001_000003_000005_000009_000007_000021_000045_000015_000397_000385_000597,
  1_000517_000001_000003_000007_000003_000023_000013_000073_000221_000511_000883_001265,
  1_000518_000001_000001_000003_000011_000001_000051_000073_000185_000033_000975_001441,
  1_000524_000001_000003_000003_000009_000019_000059_000021_000039_000339_000037_000143,
  1_000527_000001_000001_000007_000001_000031_000033_000019_000167_000117_000635_000639,
  1_000555_000001_000001_000001_000003_000005_000013_000059_000083_000355_000349_001967,
  1_000560_000001_000001_000001_000005_000019_000003_000053_000133_000097_000863_000983,
  1_000565_000001_000003_000001_000013_000009_000041_000091_000105_000173_000097_000625,
  1_000569_000001_000001_000005_000003_000007_000049_000115_000133_000071_000231_001063,
  1_000578_000001_000001_000007_000005_000017_000043_000047_000045_000497_000547_000757,
  1_000580_000001_000003_000005_000015_000021_000061_000123_000191_000249_000031_000631,
  1_000587_000001_000003_000007_000009_000017_000007_000011_000185_000127_000169_001951]

def dirRows11_0_1 : List Nat := [
  1_000589_000001_000001_000005_000013_000011_000011_000009_000049_000029_000125_000791,
  1_000590_000001_000001_000001_000015_000031_000041_000013_000167_000273_000429_000057,
  1_000601_000001_000003_000005_000003_000027_000007_000035_000209_000065_000265_001393,
  1_000607_000001_000003_000001_000013_000031_000019_000053_000143_000135_000009_001021,
  1_000611_000001_000001_000007_000013_000031_000005_000115_000153_000143_000957_000623,
  1_000614_000001_000001_000005_000011_000025_000019_000029_000031_000297_000943_000443,
  1_000617_000001_000003_000003_000005_000021_000011_000127_000081_000479_000025_000699,
  1_000618_000001_000001_000003_000011_000025_000031_000097_000019_000195_000781_000705,
  1_000625_000001_000001_000005_000005_000031_000011_000075_000207_000197_000885_002037,
  1_000628_000001_000001_000001_000011_000009_000023_000029_000231_000307_000017_001497,
  1_000635_000001_000001_000005_000011_000011_000043_000111_000233_000307_000523_001259,
  1_000641_000001_000001_000007_000005_000001_000021_000107_000229_000343_000933_000217,
  1_000647_000001_000001_000001_000011_000003_000021_000125_000131_000405_000599_001469,
  1_000654_000001_000003_000005_000005_000009_000039_000033_000081_000389_000151_000811,
  1_000659_000001_000001_000007_000007_000007_000001_000059_000223_000265_000529_002021,
  1_000662_000001_000003_000001_000003_000009_000023_000085_000181_000047_000265_000049,
  1_000672_000001_000003_000005_000011_000019_000023_000009_000007_000157_000299_001983,
  1_000675_000001_000003_000001_000005_000015_000005_000021_000105_000029_000339_001041,
  1_000682_000001_000001_000001_000001_000005_000033_000065_000085_000111_000705_000479,
  1_000684_000001_000001_000001_000007_000009_000035_000077_000087_000151_000321_000101,
  1_000689_000001_000001_000005_000007_000017_000001_000051_000197_000175_000811_001229,
  1_000695_000001_000003_000003_000015_000023_000037_000085_000185_000239_000543_000731,
  1_000696_000001_000003_000001_000007_000007_000055_000111_000109_000289_000439_000243,
  1_000713_000001_000001_000007_000011_000017_000053_000035_000217_000259_000853_001667,
  1_000719_000001_000003_000001_000009_000001_000063_000087_000017_000073_000565_001091,
  1_000724_000001_000001_000003_000003_000011_000041_000001_000057_000295_000263_001029,
  1_000733_000001_000001_000005_000001_000027_000045_000109_000161_000411_000421_001395,
  1_000734_000001_000003_000005_000011_000025_000035_000047_000191_000339_000417_001727,
  1_000740_000001_000001_000005_000015_000021_000001_000093_000251_000351_000217_001767,
  1_000747_000001_000003_000003_000011_000003_000007_000075_000155_000313_000211_000491,
  1_000749_000001_000003_000003_000005_000011_000009_000101_000161_000453_000913_001067,
  1_000752_000001_000001_000003_000001_000015_000045_000127_000141_000163_000727_001597,
  1_000755_000001_000003_000003_000007_000001_000033_000063_000073_000073_000341_001691,
  1_000762_000001_000003_000005_000013_000015_000039_000053_000235_000077_000099_000949,
  1_000770_000001_000001_000005_000013_000031_000017_000097_000013_000215_000301_001927,
  1_000782_000001_000001_000007_000001_000001_000037_000091_000093_000441_000251_001131,
  1_000784_000001_000003_000007_000009_000025_000005_000105_000069_000081_000943_001459,
  1_000787_000001_000003_000007_000011_000031_000043_000013_000209_000027_001017_000501,
  1_000789_000001_000001_000007_000015_000001_000033_000031_000233_000161_000507_000387,
  1_000793_000001_000003_000003_000005_000005_000053_000033_000177_000503_000627_001927,
  1_000796_000001_000001_000007_000011_000007_000061_000119_000031_000457_000229_001875,
  1_000803_000001_000001_000005_000015_000019_000005_000053_000201_000157_000885_001057,
  1_000805_000001_000003_000007_000009_000001_000035_000051_000113_000249_000425_001009,
  1_000810_000001_000003_000005_000007_000021_000053_000037_000155_000119_000345_000631,
  1_000815_000001_000003_000005_000007_000015_000031_000109_000069_000503_000595_001879,
  1_000824_000001_000003_000003_000001_000025_000035_000065_000131_000403_000705_000503,
  1_000829_000001_000003_000007_000007_000019_000033_000011_000153_000045_000633_000499,
  1_000830_000001_000003_000003_000005_000011_000003_000029_000093_000487_000033_000703,
  1_000832_000001_000001_000003_000015_000021_000053_000107_000179_000387_000927_001757,
  1_000841_000001_000001_000003_000007_000021_000045_000051_000147_000175_000317_000361,
  1_000847_000001_000001_000001_000007_000007_000013_000015_000243_000269_000795_001965,
  1_000849_000001_000001_000003_000005_000019_000033_000057_000115_000443_000537_000627,
  1_000861_000001_000003_000003_000009_000003_000039_000025_000061_000185_000717_001049,
  1_000871_000001_000003_000007_000003_000007_000037_000107_000153_000007_000269_001581,
  1_000878_000001_000001_000007_000003_000007_000041_000091_000041_000145_000489_001245,
  1_000889_000001_000001_000005_000009_000007_000007_000105_000081_000403_000407_000283,
  1_000892_000001_000001_000007_000009_000027_000055_000029_000077_000193_000963_000949,
  1_000901_000001_000001_000005_000003_000025_000051_000107_000063_000403_000917_000815,
  1_000908_000001_000001_000007_000003_000007_000061_000019_000051_000457_000599_000535,
  1_000920_000001_000003_000007_000001_000023_000051_000105_000153_000239_000215_001847,
  1_000923_000001_000001_000003_000005_000027_000023_000079_000049_000495_000045_001935,
  1_000942_000001_000001_000001_000011_000011_000047_000055_000133_000495_000999_001461,
  1_000949_000001_000001_000003_000015_000027_000051_000093_000017_000355_000763_001675,
  1_000950_000001_000003_000001_000003_000001_000003_000079_000119_000499_000017_000995,
  1_000954_000001_000001_000001_000001_000015_000043_000045_000017_000167_000973_000799,
  1_000961_000001_000001_000001_000003_000027_000049_000089_000029_000483_000913_002023,
  1_000968_000001_000001_000003_000003_000005_000011_000075_000007_000041_000851_000611,
  1_000971_000001_000003_000001_000003_000007_000057_000039_000123_000257_000283_000507,
  1_000973_000001_000003_000003_000011_000027_000023_000113_000229_000187_000299_000133,
  1_000979_000001_000001_000003_000013_000009_000063_000101_000077_000451_000169_000337,
  1_000982_000001_000003_000007_000003_000003_000059_000045_000195_000229_000415_000409,
  1_000986_000001_000003_000005_000003_000011_000019_000071_000093_000043_000857_000369,
  1_000998_000001_000003_000007_000009_000019_000033_000115_000019_000241_000703_000247,
  1_001001_000001_000003_000005_000011_000005_000035_000021_000155_000463_001005_001073,
  1_001010_000001_000003_000007_000003_000025_000015_000109_000083_000093_000069_001189,
  1_001012_000001_000003_000005_000007_000005_000021_000093_000133_000135_000167_000903]

/-- Rows with 11 initial numbers, part 0. -/
def dir11_0 : List (List Nat) := [
  dirRows11_0_0,
  dirRows11_0_1]

def dirRows12_0_0 : List Nat := [
  1_000041_000001_000001_000007_000007_000003_000059_000121_000161_000285_000815_001769_003705,
  1_000052_000001_000003_000001_000001_000003_000047_000103_000171_000381_000609_000185_000373,
  1_000061_000001_000003_000003_000015_000023_000033_000107_000131_000441_000445_000689_002059,
  1_000062_000001_000003_000003_000011_000007_000053_000101_000167_000435_000803_001255_003781,
  1_000076_000001_000001_000005_000011_000015_000059_000041_000019_000135_000835_001263_000505,
  1_000104_000001_000001_000007_000011_000021_000049_000023_000219_000127_000961_001065_000385,
  1_000117_000001_000003_000005_000015_000007_000047_000117_000217_000045_000731_001639_000733,
  1_000131_000001_000001_000007_000011_000027_000057_000091_000087_000081_000035_001269_001007,
  1_000143_000001_000001_000003_000011_000015_000037_000053_000219_000193_000937_001899_003733,
  1_000145_000001_000003_000005_000003_000013_000011_000027_000019_000199_000393_000965_002195,
  1_000157_000001_000003_000001_000003_000005_000001_000037_000173_000413_001023_000553_000409,
  1_000167_000001_000003_000001_000007_000015_000029_000123_000095_000255_000373_001799_003841,
  1_000171_000001_000003_000005_000013_000021_000057_000051_000017_000511_000195_001157_001831,
  1_000176_000001_000001_000001_000015_000029_000019_000007_000073_000295_000519_000587_003523,
  1_000181_000001_000001_000005_000013_000013_000035_000115_000191_000123_000535_000717_001661,
  1_000194_000001_000003_000003_000005_000023_000021_000047_000251_000379_000921_001119_000297,
  1_000217_000001_000003_000003_000009_000029_000053_000121_000201_000135_000193_000523_002943,
  1_000236_000001_000001_000001_000007_000029_000045_000125_000009_000099_000867_000425_000601,
  1_000239_000001_000003_000001_000009_000013_000015_000067_000181_000109_000293_001305_003079,
  1_000262_000001_000003_000003_000009_000005_000035_000015_000209_000305_000087_000767_002795,
  1_000283_000001_000003_000003_000011_000027_000057_000113_000123_000179_000643_000149_000523,
  1_000286_000001_000001_000003_000015_000011_000017_000067_000223_000063_000657_000335_003309,
  1_000307_000001_000001_000001_000009_000025_000029_000109_000159_000039_000513_000571_001761,
  1_000313_000001_000001_000003_000001_000005_000063_000075_000019_000455_000601_000123_000691,
  1_000319_000001_000001_000001_000003_000021_000005_000045_000169_000377_000513_001951_002565,
  1_000348_000001_000001_000003_000011_000003_000033_000119_000069_000253_000907_000805_001449,
  1_000352_000001_000001_000005_000013_000031_000015_000017_000007_000499_000061_000687_001867,
  1_000357_000001_000003_000007_000011_000017_000033_000073_000077_000299_000243_000641_002345,
  1_000391_000001_000001_000007_000011_000009_000035_000031_000235_000359_000647_000379_001161,
  1_000398_000001_000003_000003_000015_000031_000025_000005_000067_000033_000045_000437_004067,
  1_000400_000001_000001_000003_000011_000007_000017_000037_000087_000333_000253_001517_002921,
  1_000412_000001_000001_000007_000015_000007_000015_000107_000189_000153_000769_001521_003427,
  1_000415_000001_000003_000005_000013_000005_000061_000113_000037_000293_000393_000113_000043,
  1_000422_000001_000001_000001_000015_000029_000043_000107_000031_000167_000147_000301_001021,
  1_000440_000001_000001_000001_000013_000003_000001_000035_000093_000195_000181_002027_001491,
  1_000460_000001_000003_000003_000003_000013_000033_000077_000199_000153_000221_001699_003671,
  1_000465_000001_000003_000005_000013_000007_000049_000123_000155_000495_000681_000819_000809,
  1_000468_000001_000003_000005_000015_000027_000061_000117_000189_000183_000887_000617_004053,
  1_000515_000001_000001_000001_000007_000031_000059_000125_000235_000389_000369_000447_001039,
  1_000536_000001_000003_000005_000001_000005_000039_000115_000089_000249_000377_000431_003747,
  1_000539_000001_000001_000001_000005_000007_000047_000059_000157_000077_000445_000699_003439,
  1_000551_000001_000001_000003_000005_000011_000021_000019_000075_000011_000599_001575_000735,
  1_000558_000001_000003_000005_000003_000019_000013_000041_000069_000199_000143_001761_003215,
  1_000563_000001_000003_000005_000007_000019_000043_000025_000041_000041_000011_001647_002783,
  1_000570_000001_000003_000001_000009_000019_000045_000111_000097_000405_000399_000457_003219,
  1_000595_000001_000001_000003_000001_000023_000015_000065_000121_000059_000985_000829_002259,
  1_000598_000001_000001_000003_000007_000017_000013_000107_000229_000075_000551_001299_002363,
  1_000617_000001_000001_000005_000005_000021_000057_000023_000199_000509_000139_002007_003875,
  1_000647_000001_000003_000001_000011_000019_000053_000015_000229_000215_000741_000695_000823,
  1_000654_000001_000003_000007_000001_000029_000003_000017_000163_000417_000559_000549_000319,
  1_000678_000001_000003_000001_000013_000017_000009_000047_000133_000365_000007_001937_001071,
  1_000713_000001_000003_000005_000007_000019_000037_000055_000163_000301_000249_000689_002327,
  1_000738_000001_000003_000005_000013_000011_000023_000061_000205_000257_000377_000615_001457,
  1_000747_000001_000003_000005_000001_000023_000037_000013_000075_000331_000495_000579_003367,
  1_000750_000001_000001_000001_000009_000001_000023_000049_000129_000475_000543_000883_002531,
  1_000757_000001_000003_000001_000005_000023_000059_000051_000035_000343_000695_000219_000369,
  1_000772_000001_000003_000003_000001_000027_000017_000063_000097_000071_000507_001929_000613,
  1_000803_000001_000001_000005_000001_000021_000031_000011_000109_000247_000409_001817_002173,
  1_000810_000001_000001_000003_000015_000023_000009_000007_000209_000301_000023_000147_001691,
  1_000812_000001_000001_000007_000005_000005_000019_000037_000229_000249_000277_001115_002309,
  1_000850_000001_000001_000001_000005_000005_000063_000005_000249_000285_000431_000343_002467,
  1_000862_000001_000001_000001_000011_000007_000045_000035_000075_000505_000537_000029_002919,
  1_000906_000001_000003_000005_000015_000011_000039_000015_000063_000263_000009_000199_000445,
  1_000908_000001_000003_000003_000003_000027_000063_000053_000171_000227_000063_001049_000827,
  1_000929_000001_000001_000003_000013_000007_000011_000115_000183_000179_000937_001785_000381,
  1_000930_000001_000003_000001_000011_000013_000015_000107_000081_000053_000295_001785_003757,
  1_000954_000001_000003_000003_000013_000011_000005_000109_000243_000003_000505_000323_001373,
  1_000964_000001_000003_000003_000011_000021_000051_000017_000177_000381_000937_001263_003889,
  1_000982_000001_000003_000005_000009_000027_000025_000085_000193_000143_000573_001189_002995,
  1_000985_000001_000003_000005_000011_000013_000009_000081_000021_000159_000953_000091_001751,
  1_000991_000001_000001_000003_000003_000027_000061_000011_000253_000391_000333_001105_000635,
  1_000992_000001_000003_000003_000015_000009_000057_000095_000081_000419_000735_000251_001141,
  1_001067_000001_000001_000005_000009_000031_000039_000059_000013_000319_000807_001241_002433,
  1_001070_000001_000003_000003_000005_000027_000013_000107_000141_000423_000937_002027_003233,
  1_001096_000001_000003_000003_000009_000009_000025_000125_000023_000443_000835_001245_000847,
  1_001099_000001_000001_000007_000015_000017_000017_000083_000107_000411_000285_000847_001571,
  1_001116_000001_000001_000003_000013_000029_000061_000037_000081_000349_000727_001453_001957,
  1_001143_000001_000003_000007_000011_000031_000013_000059_000077_000273_000591_001265_001533,
  1_001165_000001_000001_000007_000007_000013_000017_000025_000025_000187_000329_000347_001473,
  1_001178_000001_000003_000007_000007_000005_000051_000037_000099_000221_000153_000503_002583,
  1_001184_000001_000003_000001_000013_000019_000027_000011_000069_000181_000479_001183_003229,
  1_001202_000001_000003_000003_000013_000023_000021_000103_000147_000323_000909_000947_000315,
  1_001213_000001_000003_000001_000003_000023_000001_000031_000059_000093_000513_000045_002271,
  1_001221_000001_000003_000005_000001_000007_000043_000109_000059_000231_000041_001515_002385,
  1_001240_000001_000003_000001_000005_000031_000057_000049_000223_000283_001013_000011_000701,
  1_001246_000001_000001_000005_000001_000019_000053_000055_000031_000031_000299_000495_000693,
  1_001252_000001_000003_000003_000009_000005_000033_000077_000253_000427_000791_000731_001019,
  1_001255_000001_000003_000007_000011_000001_000009_000119_000203_000053_000877_001707_003499,
  1_001267_000001_000001_000003_000007_000013_000039_000055_000159_000423_000113_001653_003455,
  1_001293_000001_000001_000003_000005_000021_000047_000051_000059_000055_000411_000931_000251,
  1_001301_000001_000003_000007_000003_000031_000025_000081_000115_000405_000239_000741_000455,
  1_001305_000001_000001_000005_000001_000031_000003_000101_000083_000479_000491_001779_002225,
  1_001332_000001_000003_000003_000003_000009_000037_000107_000161_000203_000503_000767_003435,
  1_001349_000001_000003_000007_000009_000001_000027_000061_000119_000233_000039_001375_004089,
  1_001384_000001_000001_000005_000009_000001_000031_000045_000051_000369_000587_000383_002813,
  1_001392_000001_000003_000007_000005_000031_000007_000049_000119_000487_000591_001627_000053,
  1_001402_000001_000001_000007_000001_000009_000047_000001_000223_000369_000711_001603_001917,
  1_001413_000001_000003_000005_000003_000021_000037_000111_000017_000483_000739_001193_002775,
  1_001417_000001_000003_000003_000007_000017_000011_000051_000117_000455_000191_001493_003821,
  1_001423_000001_000001_000005_000009_000023_000039_000099_000181_000343_000485_000099_001931]

def dirRows12_0_1 : List Nat := [
  1_001451_000001_000003_000001_000007_000029_000049_000031_000071_000489_000527_001763_002909,
  1_001480_000001_000001_000005_000011_000005_000005_000073_000189_000321_000057_001191_003685,
  1_001491_000001_000001_000005_000015_000013_000045_000125_000207_000371_000415_000315_000983,
  1_001503_000001_000003_000003_000005_000025_000059_000033_000031_000239_000919_001859_002709,
  1_001504_000001_000003_000005_000013_000027_000061_000023_000115_000061_000413_001275_003559,
  1_001513_000001_000003_000007_000015_000005_000059_000101_000081_000047_000967_000809_003189,
  1_001538_000001_000001_000005_000011_000031_000015_000039_000025_000173_000505_000809_002677,
  1_001544_000001_000001_000005_000009_000019_000013_000095_000089_000511_000127_001395_002935,
  1_001547_000001_000001_000005_000005_000031_000045_000009_000057_000091_000303_001295_003215,
  1_001555_000001_000003_000003_000003_000019_000015_000113_000187_000217_000489_001285_001803,
  1_001574_000001_000001_000003_000001_000013_000029_000057_000139_000255_000197_000537_002183,
  1_001603_000001_000003_000001_000015_000011_000007_000053_000255_000467_000009_000757_003167,
  1_001615_000001_000003_000003_000015_000021_000013_000009_000189_000359_000323_000049_000333,
  1_001618_000001_000003_000007_000011_000007_000037_000021_000119_000401_000157_001659_001069,
  1_001629_000001_000001_000005_000007_000017_000033_000115_000229_000149_000151_002027_000279,
  1_001634_000001_000001_000005_000015_000005_000049_000077_000155_000383_000385_001985_000945,
  1_001636_000001_000003_000007_000003_000007_000055_000085_000041_000357_000527_001715_001619,
  1_001639_000001_000001_000003_000001_000021_000045_000115_000021_000199_000967_001581_003807,
  1_001657_000001_000001_000003_000007_000021_000039_000117_000191_000169_000073_000413_003417,
  1_001667_000001_000001_000001_000013_000001_000031_000057_000195_000231_000321_000367_001027,
  1_001681_000001_000003_000007_000003_000011_000029_000047_000161_000071_000419_001721_000437,
  1_001697_000001_000001_000007_000003_000011_000009_000043_000065_000157_000001_001851_000823,
  1_001704_000001_000001_000001_000005_000021_000015_000031_000101_000293_000299_000127_001321,
  1_001709_000001_000001_000007_000001_000027_000001_000011_000229_000241_000705_000043_001475,
  1_001722_000001_000003_000007_000001_000005_000015_000073_000183_000193_000055_001345_000049,
  1_001730_000001_000003_000003_000003_000019_000003_000055_000021_000169_000663_001675_000137,
  1_001732_000001_000001_000001_000013_000007_000021_000069_000067_000373_000965_001273_002279,
  1_001802_000001_000001_000007_000007_000021_000023_000017_000043_000341_000845_000465_003355,
  1_001804_000001_000003_000005_000005_000025_000005_000081_000101_000233_000139_000359_002057,
  1_001815_000001_000001_000003_000011_000015_000039_000055_000003_000471_000765_001143_003941,
  1_001826_000001_000001_000007_000015_000009_000057_000081_000079_000215_000433_000333_003855,
  1_001832_000001_000001_000005_000005_000019_000045_000083_000031_000209_000363_000701_001303,
  1_001843_000001_000003_000007_000005_000001_000013_000055_000163_000435_000807_000287_002031,
  1_001849_000001_000003_000003_000007_000003_000003_000017_000197_000039_000169_000489_001769,
  1_001863_000001_000001_000003_000005_000029_000043_000087_000161_000289_000339_001233_002353,
  1_001905_000001_000003_000003_000009_000021_000009_000077_000001_000453_000167_001643_002227,
  1_001928_000001_000001_000007_000001_000015_000007_000067_000033_000193_000241_001031_002339,
  1_001933_000001_000003_000001_000011_000001_000063_000045_000065_000265_000661_000849_001979,
  1_001939_000001_000003_000001_000013_000019_000049_000003_000011_000159_000213_000659_002839,
  1_001976_000001_000003_000005_000011_000009_000029_000027_000227_000253_000449_001403_003427,
  1_001996_000001_000001_000003_000001_000007_000003_000077_000143_000277_000779_001499_000475,
  1_002013_000001_000001_000001_000005_000011_000023_000087_000131_000393_000849_000193_003189,
  1_002014_000001_000003_000005_000011_000003_000003_000089_000009_000449_000243_001501_001739,
  1_002020_000001_000003_000001_000009_000029_000029_000113_000015_000065_000611_000135_003687]

/-- Rows with 12 initial numbers, part 0. -/
def dir12_0 : List (List Nat) := [
  dirRows12_0_0,
  dirRows12_0_1]

def dirRows13_0_0 : List Nat := [
  1_000013_000001_000001_000001_000009_000021_000019_000039_000151_000395_000501_001339_000959_002725,
  1_000019_000001_000003_000007_000001_000007_000035_000045_000033_000119_000225_001631_001695_001459,
  1_000026_000001_000001_000001_000003_000025_000055_000037_000079_000167_000907_001075_000271_004059,
  1_000041_000001_000003_000005_000013_000005_000013_000053_000165_000437_000067_001705_003177_008095,
  1_000050_000001_000003_000003_000013_000027_000057_000095_000055_000443_000245_001945_001725_001929,
  1_000055_000001_000003_000001_000009_000005_000033_000109_000035_000099_000827_000341_002401_002411,
  1_000069_000001_000001_000005_000009_000007_000033_000043_000039_000087_000799_000635_003481_007159,
  1_000070_000001_000003_000001_000001_000031_000015_000045_000027_000337_000113_000987_002065_002529,
  1_000079_000001_000001_000005_000009_000005_000015_000105_000123_000479_000289_001609_002177_004629,
  1_000082_000001_000003_000005_000011_000031_000047_000097_000087_000385_000195_001041_000651_003271,
  1_000087_000001_000001_000003_000007_000017_000003_000101_000055_000087_000629_001687_001387_002745,
  1_000093_000001_000003_000005_000005_000007_000021_000009_000237_000313_000549_001107_000117_006183,
  1_000094_000001_000001_000003_000009_000009_000005_000055_000201_000487_000851_001103_002993_004055,
  1_000097_000001_000001_000005_000009_000031_000019_000059_000007_000363_000381_001167_002057_005715,
  1_000100_000001_000003_000003_000015_000023_000063_000019_000227_000387_000827_000487_001049_007471,
  1_000112_000001_000003_000001_000005_000023_000025_000061_000245_000363_000863_000963_003583_006475,
  1_000121_000001_000001_000005_000001_000005_000027_000081_000085_000275_000049_000235_003291_001195,
  1_000134_000001_000001_000005_000007_000023_000053_000085_000107_000511_000779_001265_001093_007859,
  1_000138_000001_000003_000003_000001_000009_000021_000075_000219_000059_000485_001739_003845_001109,
  1_000148_000001_000003_000005_000001_000013_000041_000019_000143_000293_000391_002023_001791_004399,
  1_000151_000001_000003_000007_000015_000021_000013_000021_000195_000215_000413_000523_002099_002341,
  1_000157_000001_000001_000001_000003_000029_000051_000047_000057_000135_000575_000943_001673_000541,
  1_000161_000001_000003_000005_000001_000009_000013_000113_000175_000447_000115_000657_004077_005973,
  1_000179_000001_000001_000001_000011_000017_000041_000037_000095_000297_000579_000911_002207_002387,
  1_000181_000001_000003_000005_000003_000023_000011_000023_000231_000093_000667_000711_001563_007961,
  1_000188_000001_000001_000007_000003_000017_000059_000013_000181_000141_000991_001817_000457_001711,
  1_000196_000001_000003_000003_000005_000031_000059_000081_000205_000245_000537_001049_000997_001815,
  1_000203_000001_000003_000007_000005_000017_000013_000009_000079_000017_000185_000005_002211_006263,
  1_000206_000001_000003_000007_000013_000007_000053_000061_000145_000013_000285_001203_000947_002933,
  1_000223_000001_000001_000007_000003_000031_000019_000069_000217_000047_000441_001893_000673_004451,
  1_000224_000001_000001_000001_000001_000025_000009_000023_000225_000385_000629_000603_003747_004241,
  1_000227_000001_000003_000001_000009_000005_000037_000031_000237_000431_000079_001521_000459_002523,
  1_000230_000001_000003_000007_000003_000009_000043_000105_000179_000005_000225_000799_001777_004893,
  1_000239_000001_000001_000003_000001_000029_000045_000029_000159_000267_000247_000455_000847_003909,
  1_000241_000001_000001_000003_000007_000025_000021_000121_000057_000467_000275_000719_001521_007319,
  1_000248_000001_000003_000001_000003_000011_000035_000119_000123_000081_000979_001187_003623_004293,
  1_000253_000001_000001_000001_000007_000015_000025_000121_000235_000025_000487_000873_001787_001977,
  1_000268_000001_000001_000001_000011_000003_000007_000017_000135_000345_000353_000383_004011_002573,
  1_000274_000001_000003_000007_000015_000027_000013_000097_000123_000065_000675_000951_001285_006559,
  1_000283_000001_000003_000007_000003_000007_000001_000071_000019_000325_000765_000337_001197_002697,
  1_000286_000001_000003_000005_000001_000031_000037_000011_000071_000169_000283_000083_003801_007083,
  1_000289_000001_000001_000003_000015_000017_000029_000083_000065_000275_000679_001749_004007_007749,
  1_000301_000001_000001_000003_000001_000021_000011_000041_000095_000237_000361_001819_002783_002383,
  1_000302_000001_000003_000007_000011_000029_000057_000111_000187_000465_000145_000605_001987_008109,
  1_000316_000001_000001_000003_000003_000019_000015_000055_000083_000357_001001_000643_001517_006529,
  1_000319_000001_000003_000001_000005_000029_000035_000073_000023_000077_000619_001523_001725_008145,
  1_000324_000001_000001_000005_000005_000019_000023_000007_000197_000449_000337_000717_002921_000315,
  1_000331_000001_000003_000005_000009_000007_000063_000117_000097_000097_000813_001925_002817_001579,
  1_000333_000001_000001_000001_000011_000031_000007_000025_000235_000231_000133_001007_001371_001553,
  1_000345_000001_000001_000007_000005_000019_000007_000047_000171_000267_000243_001331_000567_006033,
  1_000351_000001_000001_000005_000001_000007_000049_000055_000089_000109_000735_001455_003193_006239,
  1_000358_000001_000001_000001_000007_000001_000061_000009_000103_000003_000929_001481_002927_002957,
  1_000375_000001_000001_000005_000013_000017_000021_000075_000049_000255_001019_001161_002133_001177,
  1_000379_000001_000003_000001_000003_000013_000015_000041_000247_000211_000409_001163_000523_002635,
  1_000381_000001_000003_000007_000007_000021_000059_000091_000149_000479_000391_000681_002311_006249,
  1_000386_000001_000001_000005_000011_000027_000053_000021_000211_000197_000815_000719_001605_000255,
  1_000403_000001_000001_000003_000003_000009_000033_000059_000003_000323_000001_000101_001135_008105,
  1_000405_000001_000003_000003_000001_000029_000005_000017_000141_000051_000991_000841_000327_003859,
  1_000419_000001_000003_000001_000005_000011_000019_000023_000089_000175_000173_000165_002881_001881,
  1_000426_000001_000001_000001_000015_000013_000051_000087_000039_000495_000611_001341_001531_007029,
  1_000428_000001_000001_000003_000011_000013_000055_000075_000185_000057_000061_001917_002051_005965,
  1_000439_000001_000001_000005_000005_000007_000053_000011_000217_000213_000933_000921_003607_005175,
  1_000440_000001_000003_000003_000005_000017_000053_000103_000251_000369_000781_001319_003717_004439,
  1_000446_000001_000003_000005_000013_000001_000039_000025_000235_000321_000773_000251_003111_006397,
  1_000451_000001_000001_000007_000003_000031_000005_000025_000029_000325_000385_001313_000127_004705,
  1_000454_000001_000001_000005_000015_000015_000027_000015_000085_000239_000243_001633_003473_002621,
  1_000458_000001_000003_000003_000003_000009_000019_000113_000013_000137_000165_000025_002957_007549,
  1_000465_000001_000003_000001_000003_000011_000021_000003_000097_000417_000183_001205_001437_000247,
  1_000468_000001_000001_000007_000003_000017_000021_000125_000055_000067_000387_000385_002323_000887,
  1_000472_000001_000003_000005_000005_000029_000011_000103_000223_000233_000641_000133_000415_001297,
  1_000475_000001_000003_000003_000011_000001_000009_000005_000189_000235_001007_001363_003985_000889,
  1_000477_000001_000003_000007_000009_000023_000019_000019_000183_000269_000403_001643_003559_005189,
  1_000496_000001_000003_000007_000003_000029_000045_000017_000069_000475_000149_001291_002689_007625,
  1_000502_000001_000003_000007_000003_000027_000037_000041_000073_000253_001001_000431_001111_007887,
  1_000508_000001_000001_000007_000005_000003_000007_000087_000143_000289_000495_000631_003011_006151,
  1_000517_000001_000001_000001_000013_000005_000045_000017_000167_000023_000975_000801_001975_006833,
  1_000521_000001_000003_000001_000011_000007_000021_000039_000023_000213_000429_001301_002059_000197,
  1_000527_000001_000003_000003_000015_000003_000057_000121_000133_000029_000711_001961_002497_000189,
  1_000530_000001_000001_000003_000005_000011_000055_000115_000137_000233_000673_000985_002849_005911,
  1_000532_000001_000001_000007_000015_000029_000045_000001_000241_000329_000323_000925_002821_003331,
  1_000542_000001_000001_000005_000007_000013_000031_000081_000105_000199_000145_000195_001365_005119,
  1_000552_000001_000003_000007_000011_000003_000055_000011_000031_000117_000343_001265_001837_002451,
  1_000555_000001_000001_000003_000007_000029_000057_000061_000179_000429_000591_000177_001945_002159,
  1_000560_000001_000003_000005_000011_000023_000049_000101_000137_000339_000323_001035_001749_007737,
  1_000566_000001_000003_000001_000013_000021_000035_000055_000079_000019_000269_001055_002651_007083,
  1_000575_000001_000003_000003_000011_000009_000009_000095_000167_000437_000361_001185_004083_000603,
  1_000577_000001_000001_000001_000007_000031_000061_000077_000065_000489_000657_000691_002423_004147,
  1_000589_000001_000003_000005_000007_000021_000037_000087_000191_000311_000453_002013_000829_002619,
  1_000590_000001_000001_000005_000009_000017_000047_000035_000101_000005_000813_001157_001279_007365,
  1_000602_000001_000001_000005_000003_000011_000035_000113_000199_000369_000721_000901_001471_007801,
  1_000607_000001_000003_000001_000005_000009_000061_000083_000157_000391_000739_001957_002123_004341,
  1_000608_000001_000003_000005_000011_000019_000019_000111_000225_000383_000219_000997_000717_007505,
  1_000611_000001_000003_000001_000011_000013_000063_000035_000127_000209_000831_000501_003017_003507,
  1_000613_000001_000003_000007_000009_000029_000007_000011_000163_000081_000563_001445_003215_006377,
  1_000625_000001_000003_000007_000011_000025_000003_000039_000195_000491_000045_000839_004021_004899,
  1_000644_000001_000003_000007_000015_000013_000005_000067_000143_000117_000505_001281_003679_005695,
  1_000651_000001_000003_000007_000009_000009_000019_000021_000221_000147_000763_000683_002211_000589,
  1_000654_000001_000001_000003_000005_000021_000047_000053_000109_000299_000807_001153_001209_007961,
  1_000656_000001_000003_000007_000011_000009_000031_000045_000043_000505_000647_001127_002681_004917,
  1_000662_000001_000001_000005_000015_000031_000041_000063_000113_000399_000727_000673_002587_005259]

def dirRows13_0_1 : List Nat := [
  1_000668_000001_000001_000001_000013_000017_000053_000035_000099_000057_000243_001447_001919_002831,
  1_000681_000001_000003_000007_000011_000023_000051_000013_000009_000049_000449_000997_003073_004407,
  1_000682_000001_000003_000005_000007_000023_000033_000089_000041_000415_000053_000697_001113_001489,
  1_000689_000001_000001_000003_000007_000001_000013_000029_000013_000255_000749_000077_003463_001761,
  1_000696_000001_000003_000003_000007_000013_000015_000093_000191_000309_000869_000739_001041_003053,
  1_000699_000001_000003_000005_000013_000005_000019_000109_000211_000347_000839_000893_002947_007735,
  1_000707_000001_000003_000001_000013_000027_000003_000119_000157_000485_000099_001703_003895_000573,
  1_000709_000001_000003_000007_000011_000001_000023_000123_000105_000031_000359_000275_001775_003685,
  1_000714_000001_000003_000003_000005_000027_000011_000125_000003_000413_000199_002043_002895_002945,
  1_000716_000001_000003_000003_000003_000015_000049_000121_000159_000233_000543_000193_004007_000321,
  1_000719_000001_000001_000003_000005_000009_000047_000087_000001_000051_001011_001595_002239_006467,
  1_000727_000001_000003_000007_000009_000001_000033_000087_000137_000469_000749_001413_000805_006817,
  1_000734_000001_000003_000001_000013_000019_000045_000095_000227_000029_000677_001275_003395_004451,
  1_000738_000001_000001_000007_000005_000007_000063_000033_000071_000443_000561_001311_003069_006943,
  1_000743_000001_000001_000001_000013_000009_000037_000023_000069_000013_000415_001479_001197_000861,
  1_000747_000001_000003_000003_000013_000027_000021_000013_000233_000105_000777_000345_002443_001105,
  1_000757_000001_000001_000007_000011_000023_000013_000021_000147_000221_000549_000073_002729_006279,
  1_000769_000001_000001_000007_000007_000025_000027_000015_000045_000227_000039_000075_001191_003563,
  1_000770_000001_000001_000005_000007_000013_000049_000099_000167_000227_000013_000353_001047_008075,
  1_000776_000001_000001_000003_000013_000031_000009_000027_000007_000461_000737_001559_003243_000053,
  1_000790_000001_000003_000001_000001_000021_000041_000097_000165_000171_000821_000587_002137_002293,
  1_000799_000001_000003_000001_000011_000017_000041_000029_000187_000087_000599_001467_001395_005931,
  1_000805_000001_000001_000001_000009_000009_000049_000089_000205_000409_000453_000061_001923_001257,
  1_000809_000001_000003_000007_000003_000009_000043_000089_000143_000431_000083_001243_001795_003599,
  1_000812_000001_000003_000005_000013_000003_000025_000059_000219_000043_000223_000797_002651_006015,
  1_000820_000001_000001_000005_000015_000007_000055_000065_000207_000213_000311_001287_001269_006467,
  1_000827_000001_000003_000007_000011_000021_000057_000031_000183_000351_000857_000911_001683_007155,
  1_000829_000001_000003_000005_000011_000027_000001_000021_000047_000387_000383_001593_000115_003805,
  1_000835_000001_000003_000001_000001_000013_000023_000087_000173_000181_000619_001653_003931_006073,
  1_000841_000001_000001_000007_000005_000017_000043_000037_000061_000307_000621_001785_000055_000115,
  1_000844_000001_000003_000007_000015_000025_000061_000123_000015_000237_000671_001473_000467_001907,
  1_000856_000001_000001_000007_000005_000029_000057_000075_000237_000085_000699_000159_003577_004771,
  1_000859_000001_000001_000001_000011_000025_000019_000051_000001_000147_000031_000895_002617_000625,
  1_000862_000001_000003_000007_000005_000029_000015_000115_000175_000395_000391_001141_001827_001181,
  1_000865_000001_000003_000005_000007_000017_000007_000011_000193_000089_000243_000561_003787_004551,
  1_000885_000001_000003_000001_000011_000007_000057_000007_000125_000403_000947_001261_000409_008083,
  1_000890_000001_000001_000005_000013_000021_000063_000115_000233_000231_000921_001747_003635_002519,
  1_000905_000001_000001_000005_000011_000003_000027_000015_000091_000505_000591_001451_003881_002997,
  1_000916_000001_000001_000003_000011_000021_000009_000109_000153_000317_000533_000593_003967_002797,
  1_000925_000001_000003_000003_000013_000009_000057_000121_000245_000219_000867_000967_000791_007095,
  1_000935_000001_000001_000001_000009_000029_000021_000099_000035_000375_000959_000329_004087_007171,
  1_000939_000001_000001_000001_000009_000011_000017_000017_000097_000089_000135_000631_003809_003253,
  1_000942_000001_000001_000001_000015_000021_000051_000091_000249_000459_000801_000757_002353_002033,
  1_000949_000001_000003_000005_000009_000023_000029_000077_000053_000399_000767_001817_002171_001629,
  1_000953_000001_000001_000003_000005_000029_000005_000043_000121_000017_000859_001479_003785_006641,
  1_000956_000001_000001_000003_000007_000007_000061_000045_000109_000371_000833_000091_000153_004553,
  1_000961_000001_000001_000003_000011_000007_000055_000081_000123_000389_000139_001933_000891_001789,
  1_000968_000001_000003_000007_000015_000025_000017_000093_000165_000503_000717_001553_001475_001627,
  1_000976_000001_000001_000001_000013_000013_000063_000013_000225_000357_000571_000033_004073_003795,
  1_000988_000001_000001_000003_000011_000001_000031_000107_000145_000407_000961_000501_002987_000103,
  1_000995_000001_000001_000007_000001_000023_000063_000049_000193_000173_000281_000025_002465_005927,
  1_000997_000001_000001_000007_000001_000001_000001_000085_000077_000273_000693_000349_001239_004503,
  1_001007_000001_000001_000005_000011_000007_000061_000009_000121_000025_000357_001443_000405_007827,
  1_001015_000001_000001_000007_000013_000011_000053_000011_000207_000145_000211_001703_001081_002117,
  1_001016_000001_000001_000003_000011_000027_000023_000019_000009_000297_000279_001481_002273_006387,
  1_001027_000001_000003_000003_000005_000015_000045_000003_000041_000305_000087_001815_003461_005349,
  1_001036_000001_000003_000003_000013_000009_000037_000079_000125_000259_000561_001087_004091_000793,
  1_001039_000001_000003_000005_000007_000031_000055_000007_000145_000347_000929_000589_002783_005905,
  1_001041_000001_000001_000007_000015_000003_000025_000001_000181_000013_000243_000653_002235_007445,
  1_001048_000001_000003_000005_000005_000017_000053_000065_000007_000033_000583_001363_001313_002319,
  1_001053_000001_000003_000003_000007_000027_000047_000097_000201_000187_000321_000063_001515_007917,
  1_001054_000001_000001_000003_000005_000023_000009_000003_000165_000061_000019_001789_003783_003037,
  1_001058_000001_000003_000001_000013_000015_000043_000125_000191_000067_000273_001551_002227_005253,
  1_001075_000001_000001_000001_000013_000025_000053_000107_000033_000299_000249_001475_002233_000907,
  1_001082_000001_000003_000005_000001_000023_000037_000085_000017_000207_000643_000665_002933_005199,
  1_001090_000001_000001_000007_000007_000025_000057_000059_000041_000015_000751_000751_001749_007053,
  1_001109_000001_000003_000003_000001_000013_000025_000127_000093_000281_000613_000875_002223_006345,
  1_001110_000001_000001_000005_000003_000029_000055_000079_000249_000043_000317_000533_000995_001991,
  1_001119_000001_000003_000003_000015_000017_000049_000079_000031_000193_000233_001437_002615_000819,
  1_001126_000001_000001_000005_000015_000025_000003_000123_000145_000377_000009_000455_001191_003953,
  1_001130_000001_000003_000005_000003_000015_000019_000041_000231_000081_000393_000003_000019_002409,
  1_001135_000001_000001_000003_000001_000027_000043_000113_000179_000007_000853_000947_002731_000297,
  1_001137_000001_000001_000001_000011_000029_000039_000053_000191_000443_000689_000529_003329_007431,
  1_001140_000001_000003_000007_000005_000003_000029_000019_000067_000441_000113_000949_002769_004169,
  1_001149_000001_000003_000005_000011_000011_000055_000085_000169_000215_000815_000803_002345_003967,
  1_001156_000001_000001_000007_000009_000005_000045_000111_000005_000419_000375_000303_001725_004489,
  1_001159_000001_000003_000005_000015_000029_000043_000079_000019_000023_000417_000381_000541_004923,
  1_001160_000001_000001_000003_000015_000003_000031_000117_000039_000117_000305_001227_001223_000143,
  1_001165_000001_000001_000005_000009_000005_000047_000087_000239_000181_000353_001561_003313_001921,
  1_001173_000001_000003_000003_000001_000003_000015_000053_000221_000441_000987_001997_002529_008059,
  1_001178_000001_000001_000007_000011_000015_000057_000111_000139_000137_000883_001881_002823_005661,
  1_001183_000001_000003_000005_000005_000021_000011_000005_000013_000027_000973_000587_001331_001373,
  1_001184_000001_000001_000007_000011_000029_000051_000093_000029_000217_000221_000055_002477_001979,
  1_001189_000001_000003_000003_000013_000003_000011_000049_000075_000379_000371_001441_000793_007633,
  1_001194_000001_000001_000001_000013_000019_000045_000089_000249_000091_000649_001695_000915_005619,
  1_001211_000001_000003_000001_000007_000007_000029_000001_000077_000313_000895_000519_000771_000295,
  1_001214_000001_000003_000001_000015_000005_000003_000001_000057_000331_000109_000485_002853_006831,
  1_001216_000001_000001_000001_000015_000017_000003_000035_000099_000245_000971_000839_002509_002803,
  1_001225_000001_000003_000003_000003_000009_000037_000057_000251_000325_000317_000529_001313_006379,
  1_001231_000001_000001_000001_000015_000025_000059_000001_000119_000095_000015_000795_002375_006463,
  1_001239_000001_000003_000001_000005_000001_000049_000117_000021_000047_000179_000863_000085_001669,
  1_001243_000001_000003_000007_000003_000009_000037_000019_000221_000455_000973_000571_001427_000817,
  1_001246_000001_000001_000001_000015_000017_000009_000067_000213_000127_000887_001299_002913_007451,
  1_001249_000001_000003_000001_000013_000027_000027_000041_000043_000171_000623_000691_000391_004885,
  1_001259_000001_000003_000001_000013_000017_000017_000123_000239_000143_000227_001151_000519_006543,
  1_001273_000001_000003_000007_000005_000007_000063_000097_000039_000101_000555_001057_000381_007891,
  1_001274_000001_000003_000005_000001_000003_000027_000085_000129_000161_000875_001945_003541_000695,
  1_001281_000001_000003_000003_000005_000021_000059_000025_000183_000035_000025_000987_001459_000181,
  1_001287_000001_000003_000005_000013_000001_000015_000127_000237_000349_000337_001491_002383_007811,
  1_001294_000001_000003_000005_000005_000031_000005_000109_000051_000409_000733_001395_003207_006049]

def dirRows13_0_2 : List Nat := [
  1_001296_000001_000001_000005_000007_000013_000035_000113_000025_000263_000389_000299_002521_001783,
  1_001305_000001_000003_000007_000011_000015_000047_000097_000073_000055_000075_000113_002695_001023,
  1_001306_000001_000003_000001_000001_000003_000013_000069_000211_000289_000483_001335_000787_000677,
  1_001318_000001_000001_000003_000003_000017_000007_000037_000077_000505_000137_001113_000345_002975,
  1_001332_000001_000001_000001_000013_000003_000011_000095_000199_000453_000109_000479_003725_000239,
  1_001335_000001_000001_000007_000015_000019_000053_000003_000145_000359_000863_000347_003833_003043,
  1_001336_000001_000001_000007_000015_000025_000063_000127_000129_000125_000195_000155_002211_008153,
  1_001341_000001_000001_000007_000013_000009_000049_000121_000115_000073_000119_001851_000727_000047,
  1_001342_000001_000003_000003_000013_000013_000011_000071_000007_000045_000591_000133_002407_005563,
  1_001362_000001_000001_000001_000013_000023_000029_000087_000089_000501_000071_001759_001119_000687,
  1_001364_000001_000001_000007_000007_000013_000007_000013_000183_000053_000951_001877_003991_006771,
  1_001368_000001_000003_000007_000011_000007_000001_000027_000047_000061_000021_000919_000961_001091,
  1_001378_000001_000003_000005_000005_000001_000027_000001_000005_000063_000157_001297_001049_005893,
  1_001387_000001_000003_000007_000009_000019_000033_000017_000133_000425_000797_001721_000153_000119,
  1_001389_000001_000003_000003_000007_000013_000037_000001_000215_000509_001003_000061_002353_007511,
  1_001397_000001_000001_000007_000001_000029_000019_000031_000079_000199_000555_001209_001603_006089,
  1_001401_000001_000003_000001_000001_000005_000031_000111_000127_000333_000429_001863_003925_005411,
  1_001408_000001_000001_000007_000005_000005_000005_000123_000191_000047_000993_000269_004051_002111,
  1_001418_000001_000001_000005_000015_000001_000009_000087_000005_000047_000463_000865_001813_007357,
  1_001425_000001_000003_000001_000003_000023_000063_000123_000083_000511_000777_000063_001285_004537,
  1_001426_000001_000003_000003_000007_000027_000025_000031_000065_000441_000529_001815_001893_000323,
  1_001431_000001_000003_000007_000005_000011_000019_000007_000005_000397_000811_000755_002883_004217,
  1_001435_000001_000003_000001_000013_000009_000021_000013_000007_000271_000539_001769_003243_005325,
  1_001441_000001_000001_000007_000001_000031_000013_000047_000131_000181_000457_001559_002663_006653,
  1_001444_000001_000003_000003_000007_000029_000055_000025_000203_000419_000091_000437_001159_005691,
  1_001462_000001_000001_000003_000013_000029_000019_000071_000217_000337_000329_000501_000939_002205,
  1_001471_000001_000001_000003_000001_000001_000027_000017_000201_000097_000285_001269_004043_002207,
  1_001474_000001_000001_000001_000001_000003_000041_000013_000199_000141_000129_001515_003129_005969,
  1_001483_000001_000003_000003_000009_000003_000017_000119_000041_000271_000933_000877_000701_002197,
  1_001485_000001_000001_000001_000007_000015_000047_000003_000195_000115_000821_000725_000843_006071,
  1_001494_000001_000003_000005_000015_000017_000033_000085_000065_000297_000571_001123_002743_005727,
  1_001497_000001_000001_000005_000011_000027_000015_000037_000235_000415_000293_001439_002739_004171,
  1_001516_000001_000003_000007_000007_000001_000055_000071_000035_000307_000011_000401_001881_000933,
  1_001522_000001_000003_000001_000011_000021_000037_000003_000177_000119_000339_000559_003991_003437,
  1_001534_000001_000003_000003_000009_000017_000017_000097_000119_000301_000169_000157_003267_002261,
  1_001543_000001_000003_000003_000009_000029_000003_000111_000101_000355_000869_000375_002609_007377,
  1_001552_000001_000003_000005_000009_000007_000021_000123_000099_000343_000693_001927_001605_004923,
  1_001557_000001_000001_000003_000005_000013_000031_000099_000017_000075_000385_001539_001553_007077,
  1_001558_000001_000003_000003_000005_000031_000035_000107_000011_000407_001019_001317_003593_007203,
  1_001567_000001_000003_000003_000013_000017_000033_000099_000245_000401_000957_000157_001949_001571,
  1_001568_000001_000003_000001_000011_000027_000015_000011_000109_000429_000307_001911_002701_000861,
  1_001574_000001_000001_000005_000013_000013_000035_000055_000255_000311_000957_001803_002673_005195,
  1_001592_000001_000001_000001_000011_000019_000003_000089_000037_000211_000783_001355_003567_007135,
  1_001605_000001_000001_000005_000005_000021_000049_000079_000017_000509_000331_000183_003831_000855,
  1_001606_000001_000003_000007_000005_000029_000019_000085_000109_000105_000523_000845_003385_007477,
  1_001610_000001_000001_000001_000007_000025_000017_000125_000131_000053_000757_000253_002989_002939,
  1_001617_000001_000003_000003_000009_000019_000023_000105_000039_000351_000677_000211_000401_008103,
  1_001623_000001_000003_000005_000001_000005_000011_000017_000003_000405_000469_001569_002865_003133,
  1_001630_000001_000001_000003_000013_000015_000005_000117_000179_000139_000145_000477_001137_002537,
  1_001634_000001_000001_000007_000009_000005_000021_000009_000093_000211_000963_001207_003343_004911,
  1_001640_000001_000001_000001_000009_000013_000043_000017_000053_000081_000793_001571_002523_003683,
  1_001643_000001_000003_000003_000013_000025_000021_000005_000059_000489_000987_001941_000171_006009,
  1_001648_000001_000003_000003_000007_000001_000039_000089_000171_000403_000467_001767_003423_002791,
  1_001651_000001_000001_000003_000009_000019_000049_000091_000125_000163_001013_000089_002849_006785,
  1_001653_000001_000001_000005_000009_000009_000011_000015_000241_000043_000297_001719_001541_001821,
  1_001670_000001_000003_000007_000015_000029_000023_000103_000239_000191_000033_001043_003649_006579,
  1_001676_000001_000003_000003_000009_000021_000051_000123_000055_000223_000645_001463_004021_005891,
  1_001684_000001_000001_000005_000007_000003_000041_000027_000235_000391_000303_002021_003187_007607,
  1_001687_000001_000001_000001_000009_000005_000049_000049_000029_000377_000251_001887_001017_001301,
  1_001691_000001_000001_000003_000003_000013_000041_000027_000047_000223_000023_000517_003227_006731,
  1_001693_000001_000001_000007_000001_000031_000025_000047_000009_000511_000623_002047_001263_001511,
  1_001698_000001_000001_000003_000015_000015_000023_000053_000001_000261_000595_000085_000241_007047,
  1_001709_000001_000003_000003_000011_000017_000005_000081_000073_000149_000781_002035_003163_004247,
  1_001715_000001_000003_000007_000007_000029_000059_000049_000079_000397_000901_001105_002191_006277,
  1_001722_000001_000003_000003_000011_000013_000027_000025_000173_000107_000073_001265_000585_005251,
  1_001732_000001_000001_000007_000015_000029_000023_000073_000229_000235_000887_001469_004073_002591,
  1_001735_000001_000001_000003_000009_000017_000015_000083_000173_000207_000879_001701_001509_000011,
  1_001747_000001_000001_000003_000005_000005_000037_000065_000161_000039_000421_001153_002007_005355,
  1_001749_000001_000001_000007_000011_000023_000037_000005_000011_000009_000499_000017_000157_005747,
  1_001754_000001_000003_000007_000013_000025_000009_000049_000007_000039_000945_001349_001759_001441,
  1_001777_000001_000001_000005_000003_000021_000015_000113_000081_000265_000837_000333_003625_006133,
  1_001784_000001_000003_000001_000011_000013_000027_000073_000109_000297_000327_000299_003253_006957,
  1_001790_000001_000001_000003_000013_000019_000039_000123_000073_000065_000005_001061_002187_005055,
  1_001795_000001_000001_000003_000001_000011_000031_000021_000115_000453_000857_000711_000495_000549,
  1_001801_000001_000003_000007_000007_000015_000029_000079_000103_000047_000713_001735_003121_006321,
  1_001802_000001_000001_000005_000005_000029_000009_000097_000033_000471_000705_000329_001501_001349,
  1_001812_000001_000003_000003_000001_000021_000009_000111_000209_000071_000047_000491_002143_001797,
  1_001828_000001_000003_000003_000003_000011_000039_000021_000135_000445_000259_000607_003811_005449,
  1_001831_000001_000001_000007_000009_000011_000025_000113_000251_000395_000317_000317_000091_001979,
  1_001837_000001_000003_000001_000009_000003_000021_000103_000133_000389_000943_001235_001749_007063,
  1_001838_000001_000001_000003_000007_000001_000011_000005_000015_000497_000477_000479_003079_006969,
  1_001840_000001_000001_000003_000003_000015_000039_000105_000131_000475_000465_000181_000865_003813,
  1_001845_000001_000001_000007_000009_000019_000063_000123_000131_000415_000525_000457_002471_003135,
  1_001863_000001_000003_000007_000015_000025_000035_000123_000045_000341_000805_000485_004049_007065,
  1_001864_000001_000001_000001_000005_000029_000009_000047_000227_000051_000867_001873_001593_002271,
  1_001867_000001_000001_000007_000015_000031_000009_000071_000117_000285_000711_000837_001435_006275,
  1_001870_000001_000003_000001_000001_000005_000019_000079_000025_000301_000415_001871_000645_003251,
  1_001877_000001_000003_000001_000003_000017_000051_000099_000185_000447_000043_000523_000219_000429,
  1_001881_000001_000003_000001_000013_000029_000013_000051_000093_000007_000995_000757_003017_006865,
  1_001884_000001_000001_000003_000015_000007_000025_000075_000017_000155_000981_001231_001229_001995,
  1_001903_000001_000003_000005_000003_000027_000045_000071_000073_000225_000763_000377_001139_002863,
  1_001917_000001_000001_000003_000001_000001_000039_000069_000113_000029_000371_001051_000793_003749,
  1_001918_000001_000001_000003_000013_000023_000061_000027_000183_000307_000431_001345_002757_004031,
  1_001922_000001_000003_000007_000005_000005_000059_000117_000197_000303_000721_000877_000723_001601,
  1_001924_000001_000003_000005_000001_000027_000033_000099_000237_000485_000711_000665_003077_005105,
  1_001928_000001_000001_000003_000001_000013_000009_000103_000201_000023_000951_002029_000165_002093,
  1_001931_000001_000003_000005_000013_000005_000029_000055_000085_000221_000677_000611_003613_004567,
  1_001951_000001_000001_000001_000001_000007_000061_000009_000233_000261_000561_000953_004023_002443,
  1_001952_000001_000003_000003_000013_000001_000017_000103_000071_000223_000213_000833_001747_006999,
  1_001957_000001_000003_000005_000015_000025_000053_000057_000187_000025_000695_001207_004089_002877]

def dirRows13_0_3 : List Nat := [
  1_001958_000001_000001_000007_000001_000007_000031_000087_000129_000493_000519_001555_001155_004637,
  1_001964_000001_000001_000001_000015_000021_000017_000023_000029_000019_000255_000927_001791_003093,
  1_001967_000001_000001_000003_000009_000017_000033_000095_000129_000175_000461_000287_002633_002325,
  1_001970_000001_000003_000005_000007_000023_000019_000063_000209_000249_000583_001373_002039_002225,
  1_001972_000001_000003_000003_000005_000005_000019_000079_000241_000459_000355_001455_003313_003639,
  1_001994_000001_000001_000007_000009_000021_000041_000097_000119_000129_000769_001541_003495_007741,
  1_002002_000001_000001_000007_000011_000009_000029_000035_000255_000141_000937_001763_000041_001393,
  1_002007_000001_000003_000007_000001_000013_000051_000061_000157_000177_000847_001829_003539_000285,
  1_002008_000001_000001_000001_000015_000021_000013_000009_000055_000397_000019_001495_001255_007235,
  1_002023_000001_000001_000007_000007_000025_000037_000053_000237_000319_000197_000269_001205_001485,
  1_002030_000001_000001_000005_000015_000023_000017_000035_000247_000323_000807_000233_003681_004407,
  1_002035_000001_000001_000003_000007_000009_000059_000085_000105_000493_000763_001639_000391_001451,
  1_002038_000001_000003_000003_000009_000015_000033_000005_000253_000129_000625_001527_002793_006057,
  1_002042_000001_000003_000001_000001_000007_000047_000021_000161_000235_000083_000397_003563_005953,
  1_002047_000001_000003_000007_000011_000003_000041_000025_000117_000375_000779_001297_003715_008117,
  1_002051_000001_000001_000003_000007_000031_000019_000103_000173_000475_000189_002035_002921_001107,
  1_002058_000001_000001_000007_000003_000025_000007_000093_000255_000307_000113_001893_002233_006919,
  1_002060_000001_000003_000005_000015_000009_000057_000079_000143_000165_000005_001389_000193_000693,
  1_002071_000001_000003_000005_000001_000029_000045_000091_000049_000189_000461_000439_001283_007835,
  1_002084_000001_000001_000003_000013_000011_000061_000041_000231_000373_000695_000395_000915_005393,
  1_002087_000001_000003_000007_000011_000005_000051_000067_000053_000483_000095_001943_000247_005653,
  1_002099_000001_000003_000007_000005_000005_000057_000045_000235_000137_000793_001069_001661_001557,
  1_002108_000001_000003_000005_000003_000025_000055_000103_000177_000081_000861_001151_000143_007655,
  1_002111_000001_000001_000003_000001_000021_000041_000067_000131_000253_000431_001269_003181_003429,
  1_002120_000001_000003_000001_000001_000021_000007_000077_000221_000257_000663_000071_002949_002481,
  1_002128_000001_000003_000005_000003_000003_000023_000045_000107_000299_000739_001013_000003_003165,
  1_002138_000001_000001_000005_000001_000003_000037_000109_000037_000243_000983_001221_001691_003869,
  1_002143_000001_000001_000005_000005_000031_000007_000005_000193_000397_000867_001495_003435_007441,
  1_002144_000001_000001_000001_000001_000017_000059_000097_000233_000389_000597_001013_001631_000483,
  1_002153_000001_000001_000001_000011_000007_000041_000107_000053_000111_000125_001513_001921_007647,
  1_002156_000001_000003_000003_000003_000031_000029_000117_000003_000365_000971_001139_002123_005913,
  1_002162_000001_000001_000001_000013_000023_000003_000001_000167_000475_000639_001811_003841_003081,
  1_002167_000001_000001_000005_000003_000005_000047_000065_000123_000275_000783_000095_000119_007591,
  1_002178_000001_000003_000001_000015_000013_000033_000093_000237_000467_000431_000705_004013_004035,
  1_002183_000001_000003_000005_000001_000019_000007_000101_000231_000155_000737_001381_003343_002051,
  1_002202_000001_000001_000005_000009_000015_000049_000045_000163_000433_000765_002031_000201_002589,
  1_002211_000001_000003_000007_000009_000019_000041_000031_000089_000093_000623_000105_000745_004409,
  1_002214_000001_000001_000005_000001_000011_000045_000127_000085_000389_000439_000829_000477_007965,
  1_002223_000001_000003_000003_000015_000013_000041_000001_000207_000435_000585_000311_001725_002737,
  1_002225_000001_000003_000003_000003_000013_000049_000021_000031_000197_000799_001411_002959_007133,
  1_002232_000001_000003_000001_000003_000007_000043_000009_000141_000133_000579_001059_000093_000957,
  1_002237_000001_000003_000007_000001_000015_000051_000023_000213_000381_000851_000699_002261_003419,
  1_002257_000001_000003_000005_000009_000025_000035_000067_000141_000035_000409_001423_000365_001645,
  1_002260_000001_000003_000003_000011_000015_000033_000027_000181_000093_000087_001761_003511_001353,
  1_002267_000001_000003_000005_000003_000025_000063_000111_000137_000321_000819_000705_001547_007271,
  1_002274_000001_000003_000001_000001_000005_000057_000099_000059_000411_000757_001371_003953_003695,
  1_002276_000001_000003_000005_000011_000011_000021_000025_000147_000239_000455_000709_000953_007175,
  1_002285_000001_000003_000003_000015_000005_000053_000091_000205_000341_000063_000723_001565_007135,
  1_002288_000001_000001_000007_000015_000011_000021_000099_000079_000063_000593_002007_003629_005271,
  1_002293_000001_000003_000003_000001_000009_000021_000045_000175_000453_000435_001855_002649_006959,
  1_002294_000001_000001_000003_000015_000015_000033_000121_000121_000251_000431_001127_003305_004199,
  1_002297_000001_000001_000001_000009_000031_000015_000071_000029_000345_000391_001159_002809_000345,
  1_002303_000001_000003_000007_000001_000023_000029_000095_000151_000327_000727_000647_001623_002971,
  1_002308_000001_000001_000007_000007_000009_000029_000079_000091_000127_000909_001293_001315_005315,
  1_002311_000001_000001_000005_000011_000013_000037_000089_000073_000149_000477_001909_003343_000525,
  1_002318_000001_000003_000005_000007_000005_000059_000055_000255_000223_000459_002027_000237_004205,
  1_002323_000001_000001_000001_000007_000027_000011_000095_000065_000325_000835_000907_003801_003787,
  1_002332_000001_000001_000001_000011_000027_000033_000099_000175_000051_000913_000331_001851_004133,
  1_002341_000001_000003_000005_000005_000013_000037_000031_000099_000273_000409_001827_003845_005491,
  1_002345_000001_000001_000003_000007_000023_000019_000107_000085_000283_000523_000509_000451_000421,
  1_002348_000001_000003_000005_000007_000013_000009_000051_000081_000087_000619_000061_002803_005271,
  1_002354_000001_000001_000001_000015_000009_000045_000035_000219_000401_000271_000953_000649_006847,
  1_002368_000001_000001_000007_000011_000009_000045_000017_000219_000169_000837_001483_001605_002901,
  1_002377_000001_000001_000007_000007_000021_000043_000037_000033_000291_000359_000071_002899_007037,
  1_002380_000001_000003_000003_000013_000031_000053_000037_000015_000149_000949_000551_003445_005455,
  1_002383_000001_000003_000001_000005_000019_000045_000081_000223_000193_000439_002047_003879_000789,
  1_002388_000001_000001_000007_000003_000011_000063_000035_000061_000255_000563_000459_002991_003359,
  1_002395_000001_000001_000005_000009_000013_000049_000047_000185_000239_000221_001533_003635_002045,
  1_002397_000001_000003_000007_000003_000025_000037_000127_000223_000051_000357_000483_003837_006873,
  1_002401_000001_000001_000007_000009_000031_000037_000113_000031_000387_000833_001243_001543_005535,
  1_002411_000001_000003_000001_000009_000023_000059_000119_000221_000073_000185_002007_002885_002563,
  1_002413_000001_000001_000001_000013_000007_000033_000053_000179_000067_000185_001541_001807_004659,
  1_002419_000001_000003_000001_000011_000031_000037_000023_000215_000269_000357_000207_000645_004219,
  1_002435_000001_000003_000003_000013_000019_000027_000107_000055_000091_000071_001695_001815_000089,
  1_002442_000001_000001_000003_000015_000003_000019_000035_000247_000049_000529_001523_003317_006151,
  1_002455_000001_000001_000007_000007_000023_000025_000107_000139_000483_000503_001277_000243_007879,
  1_002472_000001_000003_000003_000013_000003_000015_000011_000197_000135_000839_000985_000275_005527,
  1_002478_000001_000003_000005_000003_000025_000047_000095_000021_000113_000307_001001_003065_000295,
  1_002490_000001_000001_000003_000009_000019_000019_000099_000213_000363_000449_000735_002851_002521,
  1_002507_000001_000001_000003_000009_000005_000049_000063_000061_000157_000857_000497_002801_006987,
  1_002509_000001_000001_000001_000009_000001_000041_000109_000119_000499_000939_000867_003675_008023,
  1_002517_000001_000003_000001_000001_000013_000033_000109_000123_000289_000003_001271_002773_004265,
  1_002524_000001_000003_000001_000011_000009_000057_000083_000221_000095_000043_001189_000457_007133,
  1_002528_000001_000001_000007_000003_000011_000049_000033_000219_000229_000289_000685_003359_004495,
  1_002531_000001_000003_000001_000003_000019_000043_000067_000193_000041_000771_000407_000081_003891,
  1_002538_000001_000001_000007_000011_000005_000029_000051_000175_000297_000539_000001_002245_006439,
  1_002545_000001_000003_000007_000015_000021_000033_000117_000183_000511_000489_001283_003281_005979,
  1_002546_000001_000003_000007_000005_000009_000003_000125_000147_000359_000549_000369_003049_002405,
  1_002555_000001_000003_000005_000007_000019_000005_000065_000097_000483_000377_001523_001457_002995,
  1_002557_000001_000001_000005_000001_000011_000021_000041_000113_000277_000131_001475_001043_002367,
  1_002564_000001_000003_000003_000001_000015_000017_000101_000069_000443_000865_000817_001421_005231,
  1_002573_000001_000001_000003_000003_000003_000055_000095_000099_000075_000195_001929_003931_005855,
  1_002579_000001_000003_000001_000003_000019_000023_000093_000213_000241_000551_001307_000585_007729,
  1_002592_000001_000003_000001_000011_000023_000015_000053_000249_000467_000519_000095_000741_000409,
  1_002598_000001_000001_000001_000015_000029_000037_000043_000203_000233_000877_000077_001933_002729,
  1_002607_000001_000003_000007_000011_000027_000039_000043_000161_000255_000015_001463_000833_000495,
  1_002612_000001_000001_000007_000011_000003_000053_000081_000067_000375_000823_001903_003061_000395,
  1_002619_000001_000001_000001_000001_000015_000037_000093_000233_000247_000501_001321_003275_005409,
  1_002621_000001_000003_000003_000007_000007_000011_000005_000105_000139_000983_001239_000531_003881,
  1_002627_000001_000001_000005_000003_000019_000049_000107_000227_000361_000101_000355_002649_007383]

def dirRows13_0_4 : List Nat := [
  1_002633_000001_000001_000007_000005_000025_000041_000101_000121_000209_000293_001937_002259_005557,
  1_002636_000001_000001_000003_000007_000007_000001_000009_000013_000463_001019_000995_003159_000107,
  1_002642_000001_000003_000005_000011_000005_000035_000127_000097_000261_000789_000807_000807_006257,
  1_002654_000001_000001_000007_000005_000011_000013_000045_000091_000417_000101_001973_003645_002107,
  1_002660_000001_000001_000003_000007_000005_000063_000057_000049_000203_000157_000115_001393_008117,
  1_002669_000001_000003_000005_000005_000003_000043_000015_000155_000127_000489_001165_003701_004867,
  1_002675_000001_000001_000007_000007_000029_000029_000069_000215_000415_000367_000371_001901_006075,
  1_002684_000001_000001_000001_000003_000011_000033_000089_000149_000433_000705_001437_001597_000505,
  1_002694_000001_000003_000005_000001_000013_000037_000019_000119_000005_000581_002037_001633_002099,
  1_002703_000001_000003_000007_000013_000005_000049_000103_000245_000215_000515_000133_002007_001933,
  1_002706_000001_000003_000001_000009_000001_000003_000025_000197_000253_000387_001683_002267_000221,
  1_002712_000001_000003_000005_000015_000021_000009_000073_000201_000405_000999_000437_003877_006045,
  1_002715_000001_000001_000003_000001_000031_000055_000025_000083_000421_000395_001807_002129_007797,
  1_002722_000001_000001_000003_000001_000023_000021_000121_000183_000125_000347_000143_003685_004317,
  1_002727_000001_000003_000003_000003_000017_000045_000017_000223_000267_000795_001815_001309_000155,
  1_002734_000001_000001_000001_000015_000017_000059_000005_000133_000015_000715_001503_000153_002887,
  1_002742_000001_000001_000001_000001_000027_000013_000119_000077_000243_000995_001851_003719_004695,
  1_002745_000001_000003_000001_000005_000031_000049_000043_000165_000049_000609_001265_001141_000505,
  1_002751_000001_000001_000007_000013_000011_000063_000021_000253_000229_000585_001543_003719_004141,
  1_002766_000001_000003_000007_000011_000023_000027_000017_000131_000295_000895_001493_001411_003247,
  1_002768_000001_000001_000005_000009_000029_000007_000097_000015_000113_000445_000859_001483_001121,
  1_002780_000001_000003_000001_000009_000013_000049_000099_000107_000323_000201_000681_003071_005281,
  1_002790_000001_000001_000001_000015_000009_000019_000061_000161_000007_000087_000587_002199_002811,
  1_002794_000001_000003_000003_000015_000015_000019_000095_000045_000299_000829_000981_003479_000487,
  1_002796_000001_000001_000001_000009_000003_000037_000007_000019_000227_000013_000397_000513_001257,
  1_002801_000001_000001_000005_000015_000015_000013_000017_000111_000135_000929_001145_000811_001801,
  1_002804_000001_000003_000001_000003_000027_000057_000031_000019_000279_000103_000693_000631_003409,
  1_002807_000001_000001_000001_000001_000015_000013_000067_000083_000023_000799_001735_002063_003363,
  1_002816_000001_000003_000003_000007_000003_000001_000061_000031_000041_000533_002025_004067_006963,
  1_002821_000001_000001_000005_000007_000017_000027_000081_000079_000107_000205_000029_000097_004883,
  1_002831_000001_000001_000001_000005_000019_000049_000091_000201_000283_000949_000651_003819_005073,
  1_002834_000001_000001_000007_000009_000011_000013_000073_000197_000037_000219_001931_003369_006017,
  1_002839_000001_000001_000007_000015_000011_000007_000075_000205_000007_000819_000399_000661_006487,
  1_002845_000001_000003_000003_000003_000027_000037_000095_000041_000307_000165_001077_003485_000563,
  1_002852_000001_000003_000005_000003_000021_000049_000057_000179_000109_000627_001789_000431_002941,
  1_002856_000001_000001_000007_000005_000011_000019_000043_000137_000149_000679_001543_000245_001381,
  1_002861_000001_000003_000005_000005_000015_000003_000069_000081_000135_000159_001363_003401_006355,
  1_002873_000001_000003_000005_000001_000009_000061_000049_000053_000319_000025_001647_001297_000615,
  1_002874_000001_000003_000005_000011_000031_000043_000009_000101_000071_000919_000335_003147_005823,
  1_002888_000001_000003_000001_000001_000015_000005_000029_000109_000511_000945_000867_003677_006915,
  1_002893_000001_000003_000003_000015_000017_000049_000091_000111_000215_000029_001879_000097_002505,
  1_002894_000001_000003_000001_000013_000019_000061_000011_000111_000163_000777_000533_001113_005339,
  1_002902_000001_000001_000007_000009_000017_000055_000117_000091_000455_000289_000557_000913_004455,
  1_002917_000001_000003_000001_000007_000025_000019_000123_000037_000001_000277_000717_002965_004469,
  1_002921_000001_000003_000007_000003_000019_000023_000087_000235_000209_000457_002041_002893_001805,
  1_002922_000001_000003_000003_000005_000005_000043_000023_000061_000351_000791_000059_002009_002909,
  1_002929_000001_000001_000003_000007_000005_000001_000027_000231_000385_000257_001261_002701_001807,
  1_002935_000001_000003_000001_000001_000027_000019_000087_000253_000131_000685_001743_003983_002651,
  1_002946_000001_000003_000007_000011_000021_000017_000011_000081_000191_000641_001821_003005_007251,
  1_002951_000001_000003_000003_000005_000015_000031_000041_000213_000055_000931_001953_000049_006037,
  1_002957_000001_000001_000007_000015_000007_000027_000065_000223_000113_000079_001875_000911_005445,
  1_002960_000001_000003_000007_000007_000023_000055_000051_000167_000495_000025_001585_003447_000799,
  1_002966_000001_000001_000003_000007_000027_000015_000095_000193_000337_000415_000975_003085_000967,
  1_002972_000001_000001_000007_000015_000019_000007_000093_000041_000433_000551_000401_003169_003971,
  1_002976_000001_000001_000007_000011_000013_000015_000053_000069_000433_000059_001117_003359_006231,
  1_002979_000001_000001_000007_000003_000023_000005_000115_000201_000225_000109_001903_003897_006265,
  1_002985_000001_000001_000001_000011_000017_000001_000039_000143_000361_000659_001105_000023_004923,
  1_003000_000001_000001_000001_000009_000027_000057_000085_000227_000261_000119_001881_003965_006999,
  1_003003_000001_000003_000007_000007_000015_000007_000107_000017_000315_000049_001591_000905_007789,
  1_003013_000001_000003_000001_000007_000029_000003_000047_000237_000157_000769_000839_003199_003195,
  1_003018_000001_000001_000003_000015_000025_000039_000063_000015_000111_000857_000881_001505_007671,
  1_003020_000001_000001_000007_000001_000003_000035_000041_000215_000099_000895_001025_001483_004707,
  1_003025_000001_000003_000005_000001_000001_000031_000025_000247_000113_000841_000397_001825_006969,
  1_003042_000001_000001_000003_000005_000019_000041_000049_000243_000225_000973_000241_000175_001041,
  1_003047_000001_000001_000001_000007_000015_000015_000105_000141_000083_000075_001675_003523_005219,
  1_003048_000001_000001_000007_000005_000013_000027_000047_000199_000445_000841_000959_001157_002209,
  1_003051_000001_000003_000005_000015_000023_000031_000031_000081_000085_000033_000785_002639_007799,
  1_003054_000001_000001_000005_000013_000021_000003_000047_000099_000235_000943_001731_002467_007891,
  1_003056_000001_000001_000001_000003_000017_000053_000085_000219_000073_000131_001339_000875_001191,
  1_003065_000001_000001_000005_000007_000017_000063_000113_000007_000185_000557_000749_003563_004973,
  1_003073_000001_000003_000003_000015_000015_000021_000043_000111_000155_000689_000345_000423_003597,
  1_003074_000001_000001_000005_000001_000015_000029_000093_000005_000361_000713_000695_003937_000425,
  1_003083_000001_000003_000007_000007_000013_000041_000115_000175_000315_000937_000123_002841_004457,
  1_003086_000001_000001_000003_000011_000025_000005_000103_000053_000423_000811_000657_000399_007257,
  1_003091_000001_000001_000001_000001_000001_000013_000101_000211_000383_000325_000097_001703_004429,
  1_003097_000001_000003_000007_000009_000031_000045_000083_000157_000509_000701_000841_001105_003643,
  1_003109_000001_000001_000001_000007_000001_000009_000069_000017_000129_000281_001161_002945_007693,
  1_003116_000001_000003_000007_000001_000011_000029_000051_000143_000077_000433_001723_002317_005641,
  1_003124_000001_000001_000001_000001_000021_000043_000013_000067_000177_000505_001629_001267_004885,
  1_003128_000001_000001_000003_000011_000027_000063_000111_000047_000233_000781_000453_001679_003209,
  1_003153_000001_000001_000003_000013_000029_000027_000119_000141_000493_000971_000461_001159_000633,
  1_003160_000001_000001_000003_000015_000023_000005_000079_000215_000163_000149_001805_002399_000061,
  1_003165_000001_000003_000005_000013_000019_000005_000001_000039_000409_000561_000709_000829_001357,
  1_003172_000001_000003_000003_000013_000019_000043_000009_000177_000449_000447_000073_002107_005669,
  1_003175_000001_000003_000005_000001_000023_000013_000063_000109_000203_000593_000829_004017_006881,
  1_003184_000001_000001_000005_000007_000003_000009_000053_000175_000391_000169_001283_003793_004451,
  1_003193_000001_000001_000005_000007_000029_000043_000009_000005_000209_000077_000927_002941_008145,
  1_003196_000001_000003_000005_000015_000017_000049_000005_000143_000131_000771_001685_000925_002175,
  1_003200_000001_000001_000003_000011_000027_000027_000027_000159_000161_001015_001587_004049_001983,
  1_003203_000001_000003_000001_000003_000023_000057_000119_000067_000481_000577_000389_003319_005325,
  1_003205_000001_000003_000005_000001_000019_000039_000087_000061_000329_000657_001773_000031_001707,
  1_003209_000001_000001_000003_000001_000005_000025_000015_000241_000131_000815_001751_003029_008039,
  1_003224_000001_000003_000003_000013_000027_000013_000077_000087_000437_000057_000621_001031_007891,
  1_003239_000001_000003_000001_000013_000023_000051_000117_000037_000331_000745_000605_003179_004713,
  1_003251_000001_000001_000005_000005_000019_000017_000099_000167_000087_000721_000737_000789_002165,
  1_003254_000001_000003_000005_000013_000001_000051_000119_000211_000165_000299_001327_003053_003343,
  1_003265_000001_000001_000005_000015_000029_000045_000017_000129_000067_000345_001553_002705_007369,
  1_003266_000001_000001_000001_000009_000023_000007_000013_000209_000007_000407_000317_003077_007287,
  1_003275_000001_000001_000001_000005_000009_000059_000089_000003_000487_000451_000505_002499_007563,
  1_003280_000001_000003_000001_000007_000021_000001_000021_000203_000101_000417_001389_002751_001397]

def dirRows13_0_5 : List Nat := [
  1_003283_000001_000003_000007_000013_000007_000031_000003_000247_000349_000485_001259_000549_006321,
  1_003286_000001_000001_000007_000007_000027_000033_000107_000197_000293_000729_001753_002571_000103,
  1_003301_000001_000003_000005_000009_000025_000035_000005_000253_000137_000213_002041_003387_001809,
  1_003302_000001_000001_000007_000013_000015_000035_000067_000083_000295_000175_000839_002831_000839,
  1_003305_000001_000003_000003_000011_000003_000017_000055_000141_000247_000991_000117_003799_001221,
  1_003319_000001_000001_000005_000001_000011_000037_000087_000233_000457_000653_000899_002933_003105,
  1_003323_000001_000001_000003_000015_000003_000031_000067_000167_000437_000009_000651_001109_001139,
  1_003326_000001_000001_000003_000001_000007_000063_000067_000017_000011_000883_001855_001941_004751,
  1_003331_000001_000003_000007_000009_000019_000033_000113_000117_000495_000039_001795_002561_005519,
  1_003348_000001_000001_000007_000005_000001_000003_000103_000037_000201_000223_001101_000877_006483,
  1_003351_000001_000001_000005_000009_000029_000049_000051_000033_000439_000917_000861_001321_002135,
  1_003358_000001_000001_000003_000003_000001_000005_000017_000093_000217_000619_000613_001357_006095,
  1_003368_000001_000003_000001_000011_000003_000021_000005_000041_000015_000175_000843_002937_006849,
  1_003374_000001_000003_000003_000007_000009_000057_000055_000127_000079_000287_000445_002205_007989,
  1_003376_000001_000001_000007_000013_000023_000017_000093_000129_000157_000135_001747_001813_004183,
  1_003379_000001_000001_000001_000005_000031_000059_000099_000033_000425_000329_000887_000367_001761,
  1_003385_000001_000001_000007_000009_000017_000053_000077_000139_000435_000387_000049_003649_001773,
  1_003386_000001_000003_000003_000015_000021_000057_000045_000161_000331_000719_000273_003479_004173,
  1_003396_000001_000001_000003_000009_000003_000003_000105_000201_000373_000877_000919_001263_006649,
  1_003420_000001_000003_000001_000015_000013_000043_000013_000099_000073_000163_000353_003569_005601,
  1_003423_000001_000003_000007_000003_000005_000009_000069_000177_000449_000047_000781_001125_004245,
  1_003430_000001_000001_000001_000005_000003_000045_000001_000123_000409_000903_000205_002057_007637,
  1_003433_000001_000003_000005_000009_000019_000047_000087_000135_000481_000799_000101_003409_002241,
  1_003434_000001_000003_000001_000013_000003_000025_000015_000027_000181_000967_000669_002577_007249,
  1_003439_000001_000001_000007_000003_000031_000005_000103_000053_000001_000911_001209_003697_006685,
  1_003442_000001_000001_000003_000001_000005_000005_000049_000135_000281_000747_000761_002973_007963,
  1_003444_000001_000003_000003_000005_000019_000061_000125_000199_000299_000515_001365_000369_007027,
  1_003453_000001_000003_000001_000007_000005_000041_000063_000229_000283_000571_000147_000447_000657,
  1_003464_000001_000003_000001_000011_000005_000015_000055_000007_000259_000061_000027_001429_005631,
  1_003477_000001_000001_000005_000001_000003_000053_000051_000253_000155_000553_001293_003735_006567,
  1_003478_000001_000003_000005_000009_000005_000041_000021_000159_000101_000785_001981_003799_007693,
  1_003482_000001_000003_000007_000007_000009_000003_000095_000105_000129_000213_001215_001027_005699,
  1_003487_000001_000001_000003_000003_000029_000013_000009_000253_000449_000321_000341_002879_000171,
  1_003497_000001_000003_000007_000011_000021_000011_000075_000035_000043_000965_000675_002217_007175,
  1_003500_000001_000001_000005_000015_000031_000005_000029_000137_000311_000751_000047_001367_005921,
  1_003505_000001_000001_000003_000015_000017_000001_000045_000069_000055_000649_000835_000569_007615,
  1_003506_000001_000003_000001_000013_000031_000007_000023_000015_000391_000145_001845_001825_001403,
  1_003511_000001_000001_000003_000015_000005_000009_000079_000077_000105_000399_001933_002503_004781,
  1_003512_000001_000003_000001_000003_000017_000047_000019_000013_000107_000475_000759_002933_003761,
  1_003515_000001_000001_000007_000011_000003_000007_000121_000209_000397_000877_000293_000847_007039,
  1_003525_000001_000001_000001_000015_000029_000045_000005_000109_000335_000461_000143_000931_004045,
  1_003532_000001_000003_000001_000007_000011_000057_000073_000089_000201_000173_000803_003953_005205,
  1_003538_000001_000001_000005_000011_000011_000033_000037_000029_000263_001019_000657_001453_007807,
  1_003540_000001_000003_000003_000013_000031_000025_000037_000047_000261_000607_001703_002603_000417,
  1_003547_000001_000001_000001_000001_000031_000061_000045_000115_000275_000239_001989_001897_004329,
  1_003549_000001_000003_000005_000003_000031_000003_000011_000173_000335_000579_001193_002219_007875,
  1_003560_000001_000001_000007_000009_000029_000045_000013_000067_000399_000177_001293_003865_002225,
  1_003571_000001_000001_000007_000011_000011_000051_000121_000227_000469_000905_000929_002635_004165,
  1_003577_000001_000003_000007_000009_000013_000039_000055_000167_000023_000147_001603_002083_004645,
  1_003583_000001_000001_000003_000015_000027_000053_000011_000155_000157_000629_000259_003009_004605,
  1_003590_000001_000003_000001_000007_000015_000047_000051_000001_000259_000603_000887_002833_006581,
  1_003593_000001_000003_000005_000003_000001_000047_000091_000043_000361_000571_000029_001453_004269,
  1_003594_000001_000001_000003_000009_000011_000051_000055_000023_000415_000277_001423_003475_001527,
  1_003599_000001_000001_000003_000011_000029_000049_000101_000075_000299_000709_000805_004037_004389,
  1_003601_000001_000001_000007_000003_000023_000001_000037_000051_000379_000771_001301_003717_006673,
  1_003602_000001_000001_000005_000003_000023_000011_000125_000177_000375_000665_000951_001577_002603,
  1_003613_000001_000001_000001_000001_000001_000005_000071_000255_000021_000459_000467_002083_005415,
  1_003623_000001_000001_000005_000013_000023_000029_000109_000157_000363_000971_000549_000647_001177,
  1_003630_000001_000001_000003_000009_000007_000015_000101_000003_000365_000213_000745_001155_006099,
  1_003638_000001_000003_000005_000015_000015_000019_000047_000179_000303_000521_001279_000219_002415,
  1_003649_000001_000003_000003_000013_000027_000011_000083_000165_000369_000989_000261_003933_004809,
  1_003655_000001_000001_000003_000011_000031_000059_000001_000185_000053_000703_001471_002935_001107,
  1_003662_000001_000003_000003_000007_000025_000003_000081_000027_000093_000521_000433_002859_005861,
  1_003667_000001_000003_000003_000011_000029_000015_000049_000167_000315_000927_000543_003473_004307,
  1_003669_000001_000003_000001_000003_000029_000033_000053_000015_000183_000691_000703_001311_003393,
  1_003676_000001_000003_000005_000013_000023_000049_000003_000011_000001_000357_001407_000415_007211,
  1_003683_000001_000003_000007_000015_000001_000025_000091_000113_000323_000371_000189_000925_001181,
  1_003700_000001_000003_000003_000003_000017_000059_000119_000199_000115_000223_000877_002193_000193,
  1_003709_000001_000001_000001_000005_000005_000035_000031_000059_000437_000411_000037_002405_003797,
  1_003710_000001_000003_000001_000013_000009_000037_000001_000241_000059_000157_001785_001223_000563,
  1_003713_000001_000003_000005_000013_000003_000021_000025_000095_000015_000745_000085_000701_005361,
  1_003723_000001_000003_000007_000001_000031_000033_000111_000195_000035_000913_002013_002951_006611,
  1_003725_000001_000003_000005_000001_000019_000003_000075_000119_000111_000409_000951_001457_004957,
  1_003728_000001_000003_000001_000015_000019_000059_000003_000155_000237_000657_001967_003323_006235,
  1_003734_000001_000001_000005_000001_000003_000019_000045_000105_000377_000881_000167_002255_004483,
  1_003737_000001_000001_000007_000007_000013_000013_000099_000089_000201_000279_000161_002483_006001,
  1_003738_000001_000001_000007_000003_000013_000017_000097_000129_000137_000377_001519_000183_003725,
  1_003744_000001_000001_000007_000009_000009_000005_000045_000135_000115_000181_001685_003505_004387,
  1_003750_000001_000001_000001_000001_000019_000035_000069_000113_000305_000419_000949_002969_000247,
  1_003762_000001_000001_000005_000013_000023_000061_000013_000139_000501_000811_000067_001501_006493,
  1_003764_000001_000001_000003_000013_000015_000041_000027_000217_000293_000013_000145_002631_006991,
  1_003774_000001_000003_000003_000013_000015_000037_000071_000123_000285_000049_000627_001283_005993,
  1_003776_000001_000003_000003_000011_000009_000025_000011_000001_000203_000353_001347_001999_002799,
  1_003786_000001_000003_000005_000001_000007_000049_000101_000231_000499_000063_001977_002207_007829,
  1_003800_000001_000001_000007_000001_000017_000015_000115_000139_000381_000943_000623_004037_002971,
  1_003803_000001_000001_000003_000005_000013_000055_000023_000087_000139_000795_001669_001375_001185,
  1_003809_000001_000003_000003_000005_000005_000045_000097_000253_000241_000333_000645_000555_007867,
  1_003816_000001_000003_000005_000001_000001_000001_000089_000027_000407_000509_001433_000609_002355,
  1_003821_000001_000003_000007_000001_000027_000029_000005_000157_000495_000811_001293_001143_000827,
  1_003827_000001_000001_000003_000003_000025_000049_000127_000111_000191_000003_000845_001383_002521,
  1_003829_000001_000001_000005_000007_000005_000051_000101_000155_000237_000461_000831_003091_003851,
  1_003836_000001_000003_000007_000001_000029_000035_000105_000091_000285_000705_000131_000395_006011,
  1_003842_000001_000003_000005_000003_000013_000021_000083_000173_000221_000827_001775_001931_006727,
  1_003844_000001_000001_000003_000005_000003_000025_000095_000115_000205_000569_001447_000933_006425,
  1_003847_000001_000001_000007_000009_000031_000003_000017_000175_000145_000447_001321_001069_006527,
  1_003853_000001_000001_000003_000003_000023_000001_000079_000051_000421_000419_000873_003939_001801,
  1_003861_000001_000001_000005_000001_000003_000039_000015_000085_000169_000669_000919_000397_005579,
  1_003871_000001_000003_000005_000001_000021_000061_000087_000217_000251_000619_001091_004009_000229,
  1_003872_000001_000001_000001_000011_000023_000055_000085_000121_000363_000867_000315_000447_003373,
  1_003881_000001_000003_000003_000013_000029_000019_000089_000085_000137_000469_001873_002765_003975]

def dirRows13_0_6 : List Nat := [
  1_003890_000001_000003_000007_000013_000019_000063_000061_000077_000067_000361_000011_001787_004703,
  1_003892_000001_000001_000003_000011_000007_000015_000127_000105_000179_000857_001671_003647_003389,
  1_003909_000001_000001_000001_000007_000019_000021_000099_000161_000499_000519_001287_002973_000479,
  1_003921_000001_000001_000003_000013_000029_000051_000095_000251_000055_000519_001955_002881_005951,
  1_003934_000001_000001_000003_000011_000023_000063_000121_000237_000175_000311_000701_001539_002383,
  1_003938_000001_000001_000007_000005_000005_000045_000073_000097_000005_000153_000715_002037_003353,
  1_003947_000001_000001_000001_000003_000013_000007_000067_000173_000425_000843_001497_002729_005193,
  1_003950_000001_000001_000007_000001_000023_000003_000119_000011_000077_000141_001905_002269_004269,
  1_003952_000001_000001_000007_000015_000001_000023_000079_000251_000439_000603_000405_002449_006383,
  1_003964_000001_000003_000007_000011_000029_000027_000047_000255_000047_000661_001967_001007_003689,
  1_003974_000001_000003_000007_000005_000019_000039_000035_000115_000417_000373_000291_000329_000603,
  1_003980_000001_000003_000001_000009_000011_000033_000027_000193_000207_000423_001311_001369_007307,
  1_003983_000001_000001_000003_000011_000009_000029_000083_000017_000497_000493_000329_003141_005935,
  1_003986_000001_000003_000001_000005_000031_000051_000029_000171_000051_000493_001621_003501_004091,
  1_003995_000001_000001_000005_000009_000021_000043_000105_000207_000245_000363_001191_000699_001139,
  1_003998_000001_000001_000003_000011_000019_000005_000081_000119_000247_000169_001337_000045_006565,
  1_004001_000001_000003_000001_000011_000003_000051_000003_000101_000159_000011_000253_000299_005043,
  1_004002_000001_000003_000001_000005_000011_000053_000085_000039_000057_000645_002007_001039_003627,
  1_004004_000001_000003_000005_000003_000017_000061_000097_000165_000415_000357_000283_000601_005505,
  1_004008_000001_000003_000007_000003_000009_000051_000049_000085_000003_000227_000137_000309_000243,
  1_004011_000001_000001_000005_000003_000011_000059_000011_000131_000409_000703_000455_000123_006727,
  1_004016_000001_000003_000007_000009_000025_000049_000021_000171_000287_000379_000667_000313_000713,
  1_004033_000001_000001_000003_000009_000007_000035_000047_000003_000367_000581_001627_001665_003905,
  1_004036_000001_000003_000001_000001_000029_000057_000035_000055_000255_000653_000823_002197_006179,
  1_004040_000001_000003_000007_000015_000017_000015_000117_000083_000359_000163_000115_002999_005373,
  1_004053_000001_000001_000005_000003_000021_000061_000035_000097_000071_000687_000207_002917_001049,
  1_004058_000001_000001_000001_000015_000013_000015_000125_000081_000263_000661_000417_003243_001669,
  1_004081_000001_000001_000007_000003_000003_000019_000111_000193_000443_000339_000659_001211_001557,
  1_004091_000001_000003_000001_000003_000027_000003_000003_000173_000391_000213_000803_003281_003207,
  1_004094_000001_000001_000005_000015_000019_000001_000007_000211_000157_000603_000403_001387_001583]

/-- Rows with 13 initial numbers, part 0. -/
def dir13_0 : List (List Nat) := [
  dirRows13_0_0,
  dirRows13_0_1,
  dirRows13_0_2,
  dirRows13_0_3,
  dirRows13_0_4,
  dirRows13_0_5,
  dirRows13_0_6]

def dirRows14_0_0 : List Nat := [
  1_000021_000001_000003_000005_000013_000017_000053_000125_000013_000339_000723_000521_000413_005801_010451,
  1_000028_000001_000001_000003_000013_000029_000009_000099_000077_000141_000609_001533_000983_002039_000051,
  1_000041_000001_000001_000003_000011_000021_000055_000005_000051_000423_000309_000525_003715_003025_015055,
  1_000047_000001_000001_000003_000007_000009_000021_000077_000171_000239_000341_001653_001093_002273_010723,
  1_000061_000001_000001_000001_000015_000031_000015_000023_000035_000317_000869_001917_001415_004313_003687,
  1_000084_000001_000001_000001_000005_000021_000025_000099_000167_000439_000453_000473_000431_006665_004989,
  1_000087_000001_000001_000007_000009_000031_000047_000081_000083_000345_000043_001363_001885_003155_003185,
  1_000093_000001_000003_000007_000001_000031_000017_000061_000185_000341_000129_000547_000717_002071_009991,
  1_000094_000001_000003_000001_000013_000023_000061_000077_000217_000455_000077_001263_001601_003501_014953,
  1_000103_000001_000001_000007_000007_000019_000019_000001_000229_000431_000943_001069_001949_001289_015729,
  1_000117_000001_000001_000003_000005_000001_000035_000097_000251_000487_000459_001265_001739_000165_010365,
  1_000121_000001_000003_000005_000003_000011_000025_000079_000175_000383_000545_000187_000197_004329_003363,
  1_000134_000001_000001_000003_000003_000029_000009_000063_000055_000175_000277_000431_002549_002629_006409,
  1_000137_000001_000001_000003_000015_000017_000021_000079_000139_000099_000135_001763_001805_003471_005439,
  1_000157_000001_000001_000003_000009_000009_000015_000035_000119_000289_000835_000769_003843_004119_004421,
  1_000161_000001_000001_000001_000005_000019_000019_000067_000199_000307_000815_001367_001231_003927_006593,
  1_000205_000001_000001_000003_000001_000029_000051_000121_000209_000431_000047_001115_000907_002535_009755,
  1_000206_000001_000001_000003_000005_000017_000001_000005_000119_000121_000223_001719_001291_003947_015891,
  1_000211_000001_000003_000001_000015_000029_000025_000003_000131_000373_000307_000645_003513_001289_001987,
  1_000214_000001_000003_000003_000011_000029_000045_000105_000179_000331_000465_000891_001315_000403_003057,
  1_000218_000001_000001_000005_000013_000017_000059_000077_000127_000485_000855_001147_003093_000891_009869,
  1_000234_000001_000001_000001_000007_000023_000027_000031_000203_000285_000463_000827_000685_001349_015051,
  1_000236_000001_000001_000001_000005_000029_000005_000107_000195_000031_000425_000019_002865_003869_011153,
  1_000248_000001_000001_000007_000005_000007_000047_000001_000073_000307_000347_000393_002205_007709_015121,
  1_000262_000001_000001_000001_000013_000015_000061_000025_000131_000113_000369_001995_002527_004475_001745,
  1_000299_000001_000001_000001_000001_000031_000063_000021_000253_000307_000281_000859_003319_006721_002891,
  1_000304_000001_000001_000003_000011_000001_000017_000005_000183_000301_000979_000651_001685_006343_010067,
  1_000319_000001_000001_000005_000015_000023_000045_000099_000145_000263_000507_001381_003425_002215_001815,
  1_000322_000001_000003_000001_000005_000011_000063_000085_000203_000411_000881_001369_001237_004657_006541,
  1_000334_000001_000003_000003_000013_000017_000053_000121_000201_000269_000983_000215_003187_007121_006111,
  1_000355_000001_000003_000005_000015_000015_000005_000013_000143_000003_000313_001677_001093_003295_003387,
  1_000357_000001_000001_000003_000013_000003_000023_000073_000017_000257_000965_000239_001271_002803_007327,
  1_000358_000001_000003_000005_000013_000009_000057_000115_000037_000041_000467_000135_001403_003811_004741,
  1_000369_000001_000003_000007_000015_000009_000033_000039_000203_000351_000367_001355_001403_003685_004757,
  1_000372_000001_000003_000005_000011_000031_000003_000113_000123_000203_000421_001821_003151_002375_004419,
  1_000375_000001_000001_000001_000007_000021_000063_000099_000023_000133_000079_000991_001755_004989_004709,
  1_000388_000001_000003_000005_000001_000025_000063_000113_000239_000049_000443_000173_001261_003201_010599,
  1_000400_000001_000003_000003_000013_000003_000025_000101_000169_000023_000585_000327_001327_000111_010059,
  1_000415_000001_000003_000003_000005_000019_000001_000033_000089_000437_000213_001933_001741_002603_005625,
  1_000446_000001_000003_000001_000003_000015_000015_000025_000139_000073_000335_000237_002461_003101_014951,
  1_000451_000001_000003_000005_000001_000031_000015_000031_000187_000177_000659_001339_003767_004975_007123,
  1_000458_000001_000003_000001_000003_000025_000019_000047_000089_000107_000107_000649_000683_003123_011085,
  1_000471_000001_000003_000007_000009_000015_000021_000101_000025_000011_000625_001555_000675_003893_005805,
  1_000484_000001_000001_000001_000005_000007_000049_000123_000021_000439_000369_000207_000535_004619_014665,
  1_000501_000001_000001_000005_000007_000001_000025_000103_000185_000099_000239_001093_001561_006177_004039,
  1_000502_000001_000003_000007_000005_000029_000021_000043_000103_000343_000973_001561_002975_007467_007947,
  1_000517_000001_000001_000007_000009_000019_000003_000013_000023_000461_000813_001191_000985_000559_003317,
  1_000545_000001_000003_000005_000005_000027_000031_000079_000015_000365_000901_001949_000117_003619_013311,
  1_000569_000001_000003_000005_000007_000005_000033_000067_000199_000425_000189_001691_003099_000815_001677,
  1_000617_000001_000001_000007_000011_000013_000029_000073_000137_000265_000601_000445_003893_002511_008047,
  1_000618_000001_000001_000003_000001_000013_000005_000057_000101_000357_000391_000335_000601_001359_001065,
  1_000623_000001_000001_000001_000001_000025_000057_000027_000115_000031_000873_000611_002125_000447_013585,
  1_000625_000001_000003_000003_000013_000027_000017_000073_000011_000359_000033_001153_000271_004537_015141,
  1_000637_000001_000003_000007_000003_000011_000063_000103_000061_000059_000629_001629_003279_003919_003177,
  1_000661_000001_000001_000005_000015_000003_000063_000085_000193_000381_000165_000175_003247_002501_004209,
  1_000668_000001_000001_000005_000015_000001_000033_000059_000219_000487_000193_001557_000703_002907_007953,
  1_000684_000001_000001_000007_000003_000009_000003_000105_000095_000389_000991_000021_003841_006983_000285,
  1_000695_000001_000001_000001_000001_000001_000031_000025_000137_000117_000067_001283_001963_006591_015541,
  1_000716_000001_000003_000005_000011_000007_000015_000127_000089_000453_000777_001827_002311_007661_011833,
  1_000719_000001_000001_000007_000013_000019_000029_000079_000165_000223_000453_002039_003961_006467_005481,
  1_000722_000001_000003_000003_000007_000017_000041_000043_000157_000323_000003_001001_002109_004513_012127,
  1_000731_000001_000001_000005_000009_000031_000057_000003_000217_000113_000271_001663_001367_006949_008165,
  1_000738_000001_000001_000007_000015_000027_000035_000081_000235_000061_000205_000525_000311_006357_002527,
  1_000747_000001_000003_000001_000009_000019_000029_000071_000207_000321_001011_001615_001333_003459_006681,
  1_000755_000001_000003_000007_000007_000003_000057_000041_000019_000025_000397_000565_001837_007625_011813,
  1_000761_000001_000003_000003_000001_000027_000047_000031_000079_000441_000961_001255_000423_002405_000913,
  1_000767_000001_000003_000003_000013_000003_000029_000069_000227_000085_000201_000395_003199_003869_013099,
  1_000775_000001_000003_000003_000007_000029_000061_000099_000007_000027_000227_000945_000873_000475_004363,
  1_000782_000001_000003_000005_000013_000019_000021_000057_000149_000217_000443_000565_000453_005487_010981,
  1_000787_000001_000003_000003_000001_000009_000027_000047_000191_000035_000395_001429_004079_006871_008013,
  1_000794_000001_000003_000005_000015_000005_000043_000009_000079_000279_000563_001125_000985_008117_004099,
  1_000803_000001_000003_000005_000001_000013_000041_000021_000117_000287_000667_000701_001483_008167_013283,
  1_000812_000001_000003_000001_000003_000015_000015_000059_000005_000383_000509_001657_003977_007697_010941,
  1_000817_000001_000003_000001_000001_000017_000029_000019_000023_000377_000045_000981_001631_003557_006749,
  1_000824_000001_000003_000003_000009_000009_000051_000009_000193_000345_000361_001679_003333_000713_005387,
  1_000829_000001_000003_000005_000005_000017_000045_000097_000017_000385_000349_000105_002245_007295_014393,
  1_000850_000001_000003_000007_000003_000019_000051_000035_000099_000079_000301_001563_000399_005879_014675,
  1_000866_000001_000001_000007_000015_000013_000053_000055_000203_000417_000161_002033_001845_006763_003585,
  1_000871_000001_000001_000003_000003_000007_000023_000011_000043_000241_000309_001453_003147_002619_003163,
  1_000877_000001_000001_000001_000011_000017_000001_000017_000137_000443_000465_000993_003217_007879_014607,
  1_000920_000001_000001_000007_000013_000029_000049_000071_000217_000291_000793_000135_000021_002503_011091,
  1_000935_000001_000003_000001_000011_000031_000051_000121_000227_000377_000157_001457_001317_005625_006217,
  1_000959_000001_000001_000003_000007_000023_000061_000047_000093_000079_000617_001805_002403_005513_016335,
  1_000979_000001_000003_000005_000011_000023_000025_000041_000011_000495_000587_001223_003107_001469_015223,
  1_000992_000001_000003_000007_000007_000009_000001_000001_000049_000023_000723_001761_003717_007375_010875,
  1_001010_000001_000003_000003_000011_000025_000037_000057_000063_000309_000603_000183_000285_001663_005627,
  1_001012_000001_000003_000007_000011_000019_000025_000025_000201_000391_000257_000529_001645_000001_015111,
  1_001015_000001_000003_000003_000009_000011_000043_000091_000065_000005_000959_000301_001015_006343_003453,
  1_001033_000001_000003_000003_000011_000017_000017_000103_000037_000077_000973_000575_000439_000049_003639,
  1_001036_000001_000001_000005_000007_000001_000015_000107_000237_000231_000967_000923_001101_006715_001713,
  1_001053_000001_000003_000001_000015_000009_000033_000029_000211_000245_000601_001783_000887_001209_011785,
  1_001057_000001_000003_000003_000007_000021_000043_000027_000089_000027_000141_000865_000367_001379_004063,
  1_001069_000001_000003_000007_000007_000015_000017_000015_000015_000131_000649_001955_003289_003983_010689,
  1_001072_000001_000003_000001_000005_000017_000007_000125_000069_000359_000981_001345_000933_005281_007113,
  1_001075_000001_000001_000005_000009_000017_000007_000041_000207_000497_001015_000493_000891_003563_003541,
  1_001087_000001_000003_000005_000011_000027_000003_000047_000031_000303_001007_002047_002203_006257_008369,
  1_001089_000001_000001_000001_000015_000025_000015_000089_000051_000217_000357_001133_001917_000213_003365,
  1_001137_000001_000001_000005_000013_000029_000023_000123_000207_000429_000805_000819_002357_006313_011019,
  1_001166_000001_000001_000003_000007_000019_000015_000041_000073_000279_000011_001089_003107_007737_015953,
  1_001174_000001_000003_000005_000007_000007_000015_000041_000073_000493_000457_001731_001139_002513_012373]

def dirRows14_0_1 : List Nat := [
  1_001180_000001_000003_000005_000009_000017_000005_000055_000155_000173_001005_000529_003175_007667_004747,
  1_001204_000001_000001_000007_000007_000005_000021_000105_000031_000205_000847_001033_003167_002347_008499,
  1_001211_000001_000003_000005_000003_000011_000017_000059_000189_000179_001007_000033_003287_004813_008177,
  1_001219_000001_000003_000003_000013_000027_000047_000047_000171_000413_000875_001081_001259_007139_008645,
  1_001236_000001_000003_000005_000007_000025_000021_000051_000029_000361_000293_000051_001119_001453_005283,
  1_001255_000001_000003_000007_000007_000029_000055_000103_000199_000511_000341_001957_003987_002855_001279,
  1_001264_000001_000001_000001_000009_000023_000051_000061_000063_000391_000037_000055_003771_006517_015913,
  1_001306_000001_000001_000001_000009_000003_000019_000013_000147_000453_000855_001321_000189_005043_011215,
  1_001330_000001_000003_000003_000013_000023_000003_000087_000155_000401_000981_000607_003413_000995_006473,
  1_001341_000001_000003_000001_000009_000029_000047_000095_000123_000421_000353_001867_002609_002569_014083,
  1_001344_000001_000001_000005_000013_000025_000039_000029_000111_000125_000545_001493_002371_006361_006307,
  1_001347_000001_000003_000003_000011_000013_000031_000087_000075_000027_000393_000921_003655_003343_016349,
  1_001349_000001_000001_000005_000009_000019_000019_000007_000129_000223_000715_000433_001627_004463_002951,
  1_001361_000001_000001_000007_000001_000031_000013_000049_000033_000089_000043_001529_000725_003809_003427,
  1_001380_000001_000001_000007_000003_000001_000027_000045_000009_000309_000875_000659_002661_000553_007069,
  1_001390_000001_000001_000007_000015_000013_000037_000061_000019_000125_000683_001227_002255_001455_009339,
  1_001404_000001_000003_000005_000007_000019_000007_000071_000021_000465_000645_001885_000873_007405_001913,
  1_001435_000001_000003_000001_000011_000011_000035_000079_000061_000079_000057_001603_003719_006323_016371,
  1_001444_000001_000001_000007_000001_000029_000057_000085_000021_000205_000037_002045_000683_004901_008223,
  1_001453_000001_000001_000005_000013_000031_000031_000065_000131_000259_000535_000967_003943_002605_002089,
  1_001461_000001_000001_000007_000009_000027_000061_000039_000243_000207_000041_001909_003279_001331_004635,
  1_001462_000001_000003_000003_000005_000011_000063_000105_000019_000169_000095_000773_003175_001869_001797,
  1_001465_000001_000003_000003_000015_000013_000033_000107_000197_000153_000795_001477_000105_004965_000991,
  1_001468_000001_000003_000007_000011_000011_000037_000023_000149_000197_000003_001035_003857_000553_001059,
  1_001474_000001_000003_000001_000003_000017_000029_000089_000189_000193_000059_001477_003517_002565_007739,
  1_001483_000001_000001_000001_000009_000023_000003_000025_000163_000469_000305_001791_003393_006141_008119,
  1_001488_000001_000003_000005_000007_000007_000041_000019_000101_000179_000487_001071_002761_008043_005103,
  1_001493_000001_000001_000007_000009_000001_000021_000101_000103_000349_000085_001841_001033_004473_003563,
  1_001500_000001_000001_000003_000013_000023_000061_000039_000027_000479_000013_000045_001371_007897_010637,
  1_001509_000001_000001_000005_000009_000017_000061_000071_000055_000355_000099_001695_003053_000839_000959,
  1_001510_000001_000001_000003_000001_000007_000027_000087_000221_000327_000241_000461_003177_005933_008299,
  1_001514_000001_000003_000007_000009_000005_000041_000111_000245_000447_000263_001363_001767_006331_003355,
  1_001519_000001_000003_000003_000013_000015_000011_000015_000169_000429_000149_001965_002477_007733_002499,
  1_001528_000001_000001_000005_000015_000015_000047_000025_000033_000469_000701_000773_002747_001533_014633,
  1_001533_000001_000003_000001_000005_000019_000057_000037_000075_000423_000011_000685_002487_001779_008797,
  1_001540_000001_000003_000001_000005_000019_000041_000067_000099_000333_000991_000953_003221_000939_004197,
  1_001550_000001_000003_000001_000015_000011_000039_000025_000001_000159_000679_000465_001611_005799_002537,
  1_001567_000001_000001_000005_000011_000005_000037_000037_000007_000101_000703_000235_000023_002209_012799,
  1_001571_000001_000001_000007_000003_000011_000023_000071_000215_000045_000269_001539_003625_005773_006889,
  1_001573_000001_000003_000005_000015_000027_000033_000105_000109_000205_000653_000821_000435_001087_002495,
  1_001578_000001_000001_000003_000005_000011_000039_000053_000213_000041_000385_001425_000025_005553_012523,
  1_001598_000001_000003_000005_000015_000029_000049_000013_000253_000505_000407_000985_002569_006727_004761,
  1_001606_000001_000001_000001_000003_000029_000017_000069_000047_000025_000819_001145_002479_001183_003343,
  1_001618_000001_000003_000001_000015_000025_000061_000043_000055_000279_000579_000361_000355_006101_003143,
  1_001630_000001_000003_000005_000011_000003_000059_000125_000101_000451_000495_001711_003443_003625_015579,
  1_001634_000001_000003_000001_000011_000025_000061_000049_000219_000023_000795_000481_003609_003691_015419,
  1_001640_000001_000003_000007_000005_000009_000059_000049_000233_000345_000143_000181_003587_003041_001219,
  1_001643_000001_000003_000007_000013_000009_000031_000039_000137_000261_000919_001367_003145_004659_005875,
  1_001654_000001_000001_000003_000003_000027_000043_000095_000065_000301_000915_000031_000451_007743_007277,
  1_001679_000001_000003_000001_000005_000023_000037_000053_000031_000203_000453_000071_001585_006011_016369,
  1_001688_000001_000001_000005_000001_000015_000047_000091_000227_000297_000045_001415_003647_007811_014015,
  1_001698_000001_000001_000001_000001_000029_000027_000093_000121_000169_000069_001361_002907_001867_007017,
  1_001703_000001_000003_000001_000007_000023_000053_000077_000041_000025_000873_001333_003889_003239_001771,
  1_001704_000001_000001_000001_000007_000031_000027_000087_000081_000167_000343_001981_002499_007749_015747,
  1_001722_000001_000003_000005_000013_000001_000017_000097_000037_000081_000645_001167_003547_007769_010731,
  1_001735_000001_000001_000007_000005_000009_000017_000031_000055_000151_000463_001041_002303_004015_003737,
  1_001750_000001_000001_000003_000011_000031_000009_000081_000213_000095_000215_002031_002129_004299_003021,
  1_001753_000001_000001_000001_000003_000025_000025_000115_000229_000101_000441_000783_001729_007905_002375,
  1_001760_000001_000001_000005_000009_000003_000019_000073_000035_000379_000493_001333_001647_000013_000197,
  1_001789_000001_000001_000007_000009_000003_000055_000099_000043_000281_000009_000073_002477_008183_011055,
  1_001792_000001_000003_000007_000013_000025_000019_000027_000195_000469_000175_000355_001861_007255_015377,
  1_001802_000001_000001_000003_000011_000015_000019_000115_000031_000413_000835_000697_000879_006515_013465,
  1_001819_000001_000003_000003_000015_000003_000061_000105_000201_000151_000739_000049_003963_002573_003303,
  1_001825_000001_000003_000005_000007_000023_000005_000011_000215_000019_000591_000509_002887_001631_004391,
  1_001828_000001_000003_000003_000003_000025_000001_000109_000005_000363_000545_001745_000503_000827_004677,
  1_001832_000001_000001_000003_000015_000001_000045_000121_000141_000497_000745_001825_002041_002561_008153,
  1_001845_000001_000003_000001_000011_000029_000007_000071_000241_000007_000039_001379_002479_007483_007195,
  1_001846_000001_000001_000007_000011_000003_000027_000039_000097_000339_000217_001409_001569_004761_001567,
  1_001857_000001_000001_000005_000015_000011_000053_000087_000213_000297_000923_000393_000717_003297_016123,
  1_001869_000001_000001_000001_000011_000027_000041_000121_000049_000225_000379_001305_000319_002461_005445,
  1_001897_000001_000001_000005_000005_000025_000003_000121_000023_000047_000843_001679_001427_006393_004199,
  1_001906_000001_000001_000005_000013_000017_000003_000017_000025_000161_000487_000121_000361_001375_010745,
  1_001908_000001_000001_000007_000003_000003_000037_000007_000245_000107_000107_000745_002415_002131_011419,
  1_001911_000001_000001_000005_000003_000003_000023_000067_000091_000281_000387_000465_000905_000883_009775,
  1_001934_000001_000003_000007_000015_000025_000055_000123_000049_000023_000983_001903_002589_002073_007823,
  1_001962_000001_000001_000005_000011_000025_000017_000063_000229_000267_000175_001759_001947_000479_011089,
  1_001967_000001_000003_000007_000003_000011_000037_000083_000095_000415_001003_001175_002361_002117_009809,
  1_001972_000001_000003_000001_000009_000005_000039_000051_000129_000249_000161_001981_002755_008057_013641,
  1_001975_000001_000001_000007_000001_000015_000047_000009_000197_000199_000549_001091_002853_002331_004535,
  1_001999_000001_000003_000003_000013_000015_000021_000023_000111_000463_000719_001667_000377_005039_010723,
  1_002004_000001_000001_000003_000007_000023_000047_000039_000047_000307_000949_001651_002525_005835_001425,
  1_002011_000001_000003_000003_000009_000023_000047_000111_000039_000251_001001_000179_003985_000535_015435,
  1_002013_000001_000001_000003_000013_000005_000045_000051_000123_000205_000651_001583_001691_001631_011975,
  1_002037_000001_000001_000007_000009_000001_000029_000059_000027_000389_000497_001459_001633_000521_014037,
  1_002051_000001_000001_000003_000003_000003_000023_000035_000247_000371_000729_000931_000681_001777_008353,
  1_002063_000001_000003_000003_000001_000019_000015_000017_000191_000495_000643_000319_000037_005691_007049,
  1_002066_000001_000003_000005_000011_000005_000031_000123_000243_000335_000573_000113_000209_004825_007783,
  1_002094_000001_000003_000007_000007_000029_000019_000025_000191_000089_000515_000055_003013_004523_012913,
  1_002128_000001_000001_000003_000003_000015_000003_000035_000037_000339_000007_000697_000359_004553_001431,
  1_002154_000001_000003_000001_000001_000009_000015_000033_000077_000161_000013_000255_001187_006587_011715,
  1_002164_000001_000003_000007_000007_000025_000057_000061_000171_000231_000043_001219_000903_005623_004781,
  1_002198_000001_000001_000005_000015_000029_000047_000117_000023_000213_000907_001423_000369_004529_009651,
  1_002217_000001_000001_000005_000007_000015_000055_000105_000249_000401_000037_001885_003779_003441_009057,
  1_002220_000001_000001_000005_000003_000003_000027_000049_000089_000335_000561_001235_003251_002731_012711,
  1_002223_000001_000001_000001_000015_000029_000049_000037_000173_000025_000743_001321_000821_005899_009213,
  1_002238_000001_000001_000007_000003_000001_000041_000061_000209_000275_000925_000521_003029_001569_009277,
  1_002245_000001_000003_000005_000013_000017_000001_000011_000171_000441_000119_001589_000299_000157_011439,
  1_002252_000001_000001_000005_000009_000013_000033_000027_000077_000363_000939_001103_002135_001759_005429,
  1_002258_000001_000003_000007_000001_000017_000039_000049_000201_000049_000803_002003_001193_007415_013847,
  1_002264_000001_000001_000005_000005_000017_000049_000039_000019_000311_000801_001441_003263_007973_014181]

def dirRows14_0_2 : List Nat := [
  1_002280_000001_000001_000003_000009_000009_000027_000059_000089_000081_000473_001369_003121_007929_010905,
  1_002285_000001_000003_000003_000005_000017_000035_000035_000239_000379_000431_000501_003561_002059_009679,
  1_002293_000001_000003_000005_000015_000025_000029_000113_000179_000269_000891_000301_002017_007513_009379,
  1_002294_000001_000003_000001_000011_000017_000035_000049_000149_000135_000661_001691_003169_003765_009003,
  1_002298_000001_000003_000007_000015_000005_000021_000053_000241_000475_000271_000683_002351_002181_006333,
  1_002303_000001_000001_000007_000013_000025_000033_000071_000153_000221_000507_002017_002401_007545_008489,
  1_002306_000001_000001_000007_000005_000001_000049_000087_000001_000179_000331_001597_003713_000809_011109,
  1_002311_000001_000003_000001_000005_000005_000061_000093_000039_000479_000977_001099_001291_007049_002797,
  1_002326_000001_000003_000001_000013_000019_000041_000057_000077_000005_000117_000125_000115_003969_001345,
  1_002354_000001_000001_000001_000009_000015_000009_000057_000007_000219_000041_000767_000023_005771_014175,
  1_002373_000001_000003_000007_000009_000017_000061_000001_000059_000227_000349_000063_000189_003871_007919,
  1_002380_000001_000003_000005_000005_000009_000029_000033_000203_000413_000701_001129_002103_001889_008377,
  1_002385_000001_000001_000003_000001_000009_000017_000069_000115_000123_001001_000001_002893_003957_008593,
  1_002392_000001_000001_000003_000001_000031_000041_000083_000091_000113_000195_001121_002665_006815_001189,
  1_002401_000001_000001_000001_000013_000003_000059_000013_000123_000095_000103_001689_002809_005049_004055,
  1_002402_000001_000001_000001_000015_000021_000041_000011_000167_000375_000589_000207_001631_001597_008091,
  1_002408_000001_000003_000005_000005_000001_000033_000057_000089_000157_000921_001353_002777_000461_014567,
  1_002419_000001_000001_000005_000001_000025_000005_000051_000247_000001_000577_000463_003741_000303_016059,
  1_002450_000001_000001_000007_000005_000013_000007_000017_000087_000051_000987_000835_000093_005203_003973,
  1_002452_000001_000001_000007_000007_000003_000027_000007_000001_000135_000171_000231_003349_004459_002925,
  1_002477_000001_000001_000005_000005_000009_000051_000071_000153_000115_000315_000265_002207_004127_012631,
  1_002509_000001_000001_000003_000015_000023_000059_000035_000121_000425_000921_001255_002123_005811_015937,
  1_002510_000001_000003_000007_000007_000011_000021_000045_000057_000269_000395_000555_000783_006677_002889,
  1_002515_000001_000003_000005_000007_000031_000019_000073_000035_000465_000349_001429_000863_004707_006121,
  1_002524_000001_000003_000003_000009_000025_000027_000119_000159_000195_000949_000019_000073_004511_015711,
  1_002527_000001_000003_000003_000007_000009_000059_000047_000057_000091_000749_001579_001297_002445_005167,
  1_002531_000001_000003_000003_000003_000031_000057_000019_000203_000061_000927_001477_002863_001305_011673,
  1_002552_000001_000003_000007_000011_000029_000013_000003_000111_000351_000079_001863_002213_003273_007049,
  1_002561_000001_000003_000003_000009_000007_000023_000047_000237_000121_000877_000441_000119_002723_003989,
  1_002567_000001_000003_000003_000011_000017_000023_000063_000177_000231_000363_001451_000033_002169_007251,
  1_002571_000001_000001_000005_000011_000031_000041_000093_000229_000039_001009_001061_000433_002393_015401,
  1_002586_000001_000001_000005_000015_000031_000037_000025_000135_000135_000897_000033_003713_007663_008079,
  1_002588_000001_000001_000005_000007_000017_000049_000043_000089_000411_000731_001431_003893_001635_007063,
  1_002595_000001_000001_000001_000013_000029_000027_000005_000077_000283_000913_000789_000817_003309_000475,
  1_002607_000001_000001_000003_000001_000019_000021_000067_000077_000423_000551_000005_001057_005469_007859,
  1_002621_000001_000001_000005_000001_000001_000021_000099_000237_000215_000759_001505_001983_001517_008923,
  1_002630_000001_000003_000005_000007_000019_000061_000073_000215_000165_000127_000205_000259_007755_015395,
  1_002639_000001_000001_000005_000009_000015_000023_000017_000111_000471_000751_001923_000775_006901_013095,
  1_002653_000001_000001_000007_000001_000025_000005_000063_000141_000461_000687_001589_001559_007719_011349,
  1_002670_000001_000001_000001_000003_000011_000063_000011_000027_000253_000439_000297_001315_000829_003765,
  1_002672_000001_000003_000001_000001_000009_000047_000127_000179_000173_000809_000241_000035_007355_005049,
  1_002700_000001_000003_000001_000011_000019_000063_000093_000001_000205_000977_000303_003409_006529_010927,
  1_002711_000001_000003_000007_000009_000031_000063_000041_000079_000477_000091_001801_003487_006885_013341,
  1_002715_000001_000001_000003_000007_000015_000059_000009_000101_000459_000247_000549_002855_005765_007785,
  1_002748_000001_000001_000007_000003_000013_000059_000071_000123_000093_000517_001453_002389_004429_005053,
  1_002751_000001_000001_000005_000003_000019_000021_000077_000053_000081_000879_001653_001637_003667_002623,
  1_002753_000001_000001_000001_000015_000017_000057_000065_000053_000407_000765_000417_000497_005009_002175,
  1_002754_000001_000003_000003_000007_000031_000013_000005_000203_000263_000017_000119_001607_006773_011195,
  1_002760_000001_000003_000003_000013_000019_000013_000013_000147_000093_000735_000689_000781_000655_006853,
  1_002774_000001_000001_000001_000001_000001_000025_000063_000159_000493_000987_000071_001249_005859_011717,
  1_002784_000001_000001_000001_000015_000013_000023_000061_000061_000005_000947_001853_003331_000467_008081,
  1_002793_000001_000001_000003_000009_000019_000061_000065_000189_000095_000309_000283_001725_005683_015463,
  1_002804_000001_000001_000007_000005_000009_000033_000035_000075_000475_000831_001445_001485_005047_009631,
  1_002811_000001_000001_000003_000015_000011_000023_000059_000087_000433_000221_000685_003113_004095_013819,
  1_002822_000001_000001_000007_000015_000025_000029_000067_000017_000349_000353_001321_000563_000057_000533,
  1_002826_000001_000003_000003_000003_000005_000043_000109_000217_000015_000185_001895_001015_001831_010623,
  1_002836_000001_000001_000007_000001_000001_000047_000081_000185_000059_000691_000191_003709_001535_013347,
  1_002839_000001_000001_000005_000001_000023_000057_000083_000217_000457_000771_001877_002789_008143_004797,
  1_002840_000001_000001_000003_000007_000023_000035_000079_000049_000227_000205_001523_003873_004843_010505,
  1_002893_000001_000001_000001_000001_000017_000043_000121_000095_000205_000035_000189_002061_001693_013273,
  1_002901_000001_000001_000001_000015_000031_000049_000083_000249_000433_000497_001949_001845_005215_005971,
  1_002902_000001_000003_000001_000001_000021_000053_000073_000211_000265_000929_000923_000279_003621_009469,
  1_002905_000001_000003_000007_000007_000001_000057_000013_000045_000467_000705_000371_001345_001647_003411,
  1_002912_000001_000003_000001_000011_000027_000029_000117_000163_000143_000669_000489_003913_007891_009031,
  1_002915_000001_000003_000007_000015_000027_000015_000077_000217_000107_000839_001517_001543_000357_010365,
  1_002918_000001_000001_000001_000005_000031_000017_000107_000245_000345_000939_001453_003645_006865_016173,
  1_002939_000001_000003_000005_000005_000009_000061_000043_000097_000453_000917_000945_002143_005473_005611,
  1_002965_000001_000001_000005_000011_000003_000033_000071_000097_000137_000549_001605_003839_004883_002677,
  1_002966_000001_000003_000001_000011_000029_000023_000085_000047_000225_000633_001613_001297_001415_015813,
  1_002975_000001_000001_000003_000003_000009_000019_000057_000107_000079_000449_001951_000753_006317_010377,
  1_002988_000001_000001_000001_000005_000021_000003_000039_000187_000299_000517_001313_000741_007259_004197,
  1_002993_000001_000001_000005_000013_000001_000039_000039_000041_000381_000123_001257_003185_000493_003723,
  1_003006_000001_000003_000007_000007_000003_000037_000015_000161_000129_000169_000555_003605_004287_015831,
  1_003017_000001_000003_000007_000015_000015_000023_000081_000163_000257_000791_000505_001903_002703_011919,
  1_003031_000001_000003_000007_000007_000027_000063_000017_000147_000111_000851_001533_001365_005359_003315,
  1_003038_000001_000003_000007_000001_000015_000005_000061_000143_000385_000261_001019_001705_001737_014485,
  1_003041_000001_000003_000005_000005_000025_000017_000049_000229_000431_000567_001613_003431_002139_002981,
  1_003042_000001_000003_000005_000011_000017_000057_000071_000241_000031_001007_001695_002965_000149_014125,
  1_003051_000001_000001_000003_000011_000007_000049_000039_000101_000005_000501_001491_003061_000225_012255,
  1_003073_000001_000003_000005_000007_000017_000035_000037_000097_000415_000015_001349_000997_002949_004511,
  1_003088_000001_000003_000001_000005_000025_000035_000099_000183_000161_000059_001363_000515_003767_003641,
  1_003097_000001_000001_000007_000015_000007_000015_000127_000137_000281_000067_000139_002315_003517_013371,
  1_003098_000001_000001_000005_000015_000023_000049_000019_000079_000425_000805_001035_000429_007707_014195,
  1_003103_000001_000003_000005_000003_000021_000025_000123_000011_000425_000475_000961_002995_007405_005449,
  1_003104_000001_000001_000007_000001_000021_000001_000075_000231_000451_000595_000719_002369_005907_001227,
  1_003146_000001_000001_000001_000009_000021_000057_000045_000255_000019_000079_000481_003363_003451_008399,
  1_003148_000001_000001_000007_000013_000031_000049_000095_000069_000483_000427_000037_004047_007057_009111,
  1_003153_000001_000003_000003_000011_000003_000061_000087_000079_000499_000091_000771_001987_002017_003381,
  1_003159_000001_000003_000001_000007_000005_000057_000001_000121_000155_000225_000501_000477_006555_009863,
  1_003182_000001_000003_000007_000011_000027_000049_000083_000213_000061_000283_001599_003205_002525_008553,
  1_003187_000001_000001_000001_000009_000009_000049_000003_000051_000141_000033_000301_002167_000587_015067,
  1_003189_000001_000001_000001_000011_000007_000055_000099_000081_000191_000553_000953_003753_006731_001093,
  1_003199_000001_000001_000003_000003_000011_000059_000057_000235_000297_000197_000853_001411_003799_007527,
  1_003239_000001_000003_000005_000003_000007_000007_000005_000201_000393_000095_000091_003273_006285_010661,
  1_003263_000001_000001_000005_000007_000017_000057_000087_000003_000413_000915_000659_000369_003593_014429,
  1_003271_000001_000003_000007_000001_000031_000031_000045_000115_000417_000427_000745_004087_000953_001119,
  1_003275_000001_000003_000007_000003_000029_000043_000045_000221_000041_000641_000451_000173_002999_012103,
  1_003278_000001_000001_000003_000011_000025_000057_000117_000201_000135_000787_001525_003879_003247_008907,
  1_003280_000001_000001_000007_000011_000003_000035_000069_000157_000331_000615_000573_002169_003575_000289,
  1_003283_000001_000003_000003_000013_000015_000051_000067_000127_000265_000495_000103_003145_002685_015919]

def dirRows14_0_3 : List Nat := [
  1_003290_000001_000003_000005_000011_000031_000027_000065_000057_000153_000465_001163_000467_004103_004713,
  1_003311_000001_000003_000007_000003_000023_000031_000009_000051_000239_000417_001597_000229_002865_015199,
  1_003316_000001_000003_000005_000003_000011_000045_000123_000217_000031_000765_001009_002001_003645_009407,
  1_003343_000001_000003_000003_000009_000005_000023_000117_000083_000237_001017_000251_001187_002631_005151,
  1_003346_000001_000001_000001_000007_000023_000055_000097_000141_000501_000305_000467_004061_002369_015973,
  1_003357_000001_000001_000007_000005_000031_000051_000125_000191_000219_000495_000037_003337_000813_000241,
  1_003358_000001_000003_000001_000001_000011_000039_000093_000109_000285_000147_001297_000737_004051_007223,
  1_003361_000001_000003_000001_000015_000013_000017_000057_000171_000463_000163_000609_001681_007583_009231,
  1_003362_000001_000003_000001_000001_000023_000005_000051_000005_000205_000415_000419_000989_004239_010943,
  1_003364_000001_000001_000003_000015_000003_000013_000065_000145_000387_000059_000395_001067_004143_005649,
  1_003386_000001_000003_000001_000013_000009_000059_000121_000127_000095_000071_001541_001423_001753_008041,
  1_003418_000001_000001_000003_000015_000007_000005_000069_000167_000181_000991_001189_004017_005935_006669,
  1_003424_000001_000003_000005_000007_000023_000041_000053_000021_000047_000261_001231_002011_000133_002247,
  1_003433_000001_000001_000001_000005_000017_000047_000077_000019_000331_000609_001893_003965_003123_009093,
  1_003434_000001_000003_000001_000003_000009_000039_000103_000231_000249_000075_000373_000107_001823_010801,
  1_003436_000001_000003_000003_000007_000001_000051_000035_000111_000137_000879_001221_000225_004285_002287,
  1_003463_000001_000001_000007_000009_000023_000017_000075_000245_000409_000163_000395_003731_007111_006845,
  1_003467_000001_000001_000003_000013_000029_000047_000075_000153_000497_000621_001691_003187_002125_010533,
  1_003477_000001_000001_000007_000007_000009_000007_000055_000159_000255_000417_001335_000643_003843_003733,
  1_003484_000001_000003_000003_000001_000021_000041_000007_000021_000005_000679_001655_000095_005699_005785,
  1_003505_000001_000001_000001_000013_000019_000007_000085_000007_000195_000357_001097_002893_002913_009635,
  1_003508_000001_000001_000005_000009_000025_000033_000041_000155_000039_000655_001993_003117_003639_007977,
  1_003515_000001_000001_000001_000013_000003_000063_000121_000247_000151_000673_000609_000285_002299_007663,
  1_003532_000001_000003_000007_000011_000017_000013_000049_000253_000245_000021_000273_000993_000911_000863,
  1_003553_000001_000001_000005_000005_000023_000001_000121_000095_000225_000009_001237_001183_006461_000559,
  1_003554_000001_000003_000007_000013_000003_000007_000121_000151_000233_000561_000281_003583_000897_001767,
  1_003568_000001_000001_000007_000007_000009_000047_000107_000041_000025_000569_001697_002299_006231_012209,
  1_003573_000001_000003_000007_000007_000027_000043_000059_000037_000031_000051_000503_000149_004043_011847,
  1_003587_000001_000003_000003_000011_000005_000001_000119_000181_000047_000641_000685_004017_000637_016251,
  1_003589_000001_000003_000003_000007_000011_000001_000101_000007_000239_000747_000307_001721_005979_004367,
  1_003596_000001_000003_000005_000007_000001_000063_000019_000151_000469_000333_001587_002453_000897_004711,
  1_003608_000001_000003_000001_000005_000011_000061_000021_000253_000091_000993_001347_001993_005607_013031,
  1_003620_000001_000003_000005_000005_000001_000039_000065_000071_000189_000389_001437_001055_006439_003989,
  1_003630_000001_000001_000003_000003_000019_000015_000093_000003_000339_000165_001675_003953_002145_012113,
  1_003644_000001_000001_000003_000013_000013_000045_000005_000175_000211_000993_000705_002761_003023_013633,
  1_003649_000001_000001_000003_000001_000019_000039_000121_000029_000287_000087_000281_003491_007107_013007,
  1_003664_000001_000001_000007_000001_000029_000049_000103_000187_000039_000923_000051_001533_003249_004399,
  1_003679_000001_000001_000005_000005_000005_000043_000025_000107_000453_000955_000115_000057_004589_014573,
  1_003680_000001_000001_000003_000005_000021_000045_000103_000099_000183_000987_001207_001697_008033_013703,
  1_003685_000001_000001_000005_000007_000011_000023_000009_000017_000261_000749_001957_000935_006283_008625,
  1_003686_000001_000001_000001_000009_000009_000051_000069_000225_000265_000323_001161_002993_007305_002249,
  1_003698_000001_000003_000001_000009_000023_000019_000057_000205_000503_000489_001499_003277_000817_011931,
  1_003714_000001_000003_000003_000005_000001_000007_000049_000001_000313_000123_000643_002027_001469_003585,
  1_003726_000001_000003_000007_000011_000027_000047_000095_000111_000027_000213_000465_003693_003661_007531,
  1_003737_000001_000001_000007_000009_000003_000037_000115_000189_000031_000613_001393_001229_004767_012425,
  1_003767_000001_000001_000003_000003_000025_000017_000099_000047_000161_000931_000959_001293_007095_008325,
  1_003782_000001_000001_000001_000007_000023_000009_000011_000051_000205_000419_000479_001497_002493_013921,
  1_003786_000001_000003_000001_000009_000017_000029_000051_000079_000159_000435_000477_000413_003815_005589,
  1_003793_000001_000003_000007_000005_000007_000023_000099_000043_000169_000665_000403_001163_004337_001335,
  1_003796_000001_000003_000001_000005_000025_000027_000125_000249_000421_000267_001259_004089_000059_009377,
  1_003805_000001_000003_000003_000001_000027_000037_000091_000017_000123_000597_001749_003449_006503_011043,
  1_003815_000001_000003_000007_000007_000023_000041_000019_000245_000109_000569_000547_001917_007943_002697,
  1_003841_000001_000003_000007_000007_000009_000001_000123_000105_000329_000435_002013_002745_000347_011045,
  1_003847_000001_000001_000001_000013_000029_000053_000051_000067_000105_000089_001887_003543_000963_008159,
  1_003853_000001_000001_000005_000003_000005_000027_000041_000067_000067_000883_000973_001785_000901_014969,
  1_003862_000001_000003_000003_000013_000017_000011_000117_000115_000163_000939_000079_000641_004365_002267,
  1_003875_000001_000001_000003_000003_000009_000005_000041_000123_000149_000009_001533_003939_005995_012701,
  1_003902_000001_000001_000001_000015_000031_000001_000101_000229_000191_000965_000061_002671_004177_015779,
  1_003904_000001_000001_000005_000015_000001_000025_000049_000185_000033_000697_001043_002639_007819_003171,
  1_003916_000001_000003_000005_000013_000019_000009_000111_000049_000047_000847_001865_000717_005287_013417,
  1_003947_000001_000003_000007_000011_000005_000061_000063_000111_000171_000735_002003_000073_005701_000647,
  1_003949_000001_000003_000001_000011_000001_000049_000121_000079_000431_000671_001241_001161_002057_000263,
  1_003955_000001_000003_000003_000001_000001_000023_000075_000015_000117_000641_000313_001525_002041_001409,
  1_003962_000001_000003_000005_000011_000015_000057_000013_000067_000139_000131_001339_002419_007945_011877,
  1_003971_000001_000003_000001_000001_000019_000039_000097_000083_000297_000595_001611_000005_004753_003435,
  1_003980_000001_000003_000001_000009_000007_000049_000125_000101_000383_000717_000063_002295_003873_013461,
  1_003985_000001_000001_000003_000003_000015_000029_000089_000077_000269_000689_000229_001207_007311_008663,
  1_003998_000001_000001_000001_000001_000001_000061_000025_000255_000203_000233_000271_000987_002277_008735,
  1_004001_000001_000001_000005_000007_000021_000027_000063_000079_000337_000133_001453_003633_006157_015875,
  1_004002_000001_000003_000001_000007_000007_000055_000031_000081_000203_000709_001743_001677_004247_011411,
  1_004016_000001_000001_000003_000003_000029_000051_000037_000017_000487_000325_001393_001433_003467_002851,
  1_004021_000001_000001_000007_000009_000003_000041_000099_000177_000241_000869_000739_002729_004585_014801,
  1_004026_000001_000001_000003_000001_000009_000043_000097_000065_000099_000295_001693_002083_003241_004073,
  1_004043_000001_000001_000001_000009_000005_000039_000067_000119_000235_000543_000795_002773_003195_006273,
  1_004079_000001_000001_000005_000005_000021_000041_000089_000001_000085_000081_000057_002951_001531_010101,
  1_004102_000001_000001_000001_000007_000003_000035_000127_000069_000039_000265_001643_002973_000267_012365,
  1_004106_000001_000003_000001_000001_000021_000057_000099_000205_000119_000477_001771_001989_002761_012573,
  1_004119_000001_000001_000003_000013_000001_000059_000093_000125_000279_000935_001877_002061_004845_007835,
  1_004126_000001_000001_000007_000009_000007_000045_000069_000099_000273_000035_001579_002137_007175_006999,
  1_004147_000001_000001_000007_000007_000029_000021_000127_000091_000009_000383_000787_001783_000601_005047,
  1_004149_000001_000001_000007_000013_000007_000029_000035_000219_000043_000581_002043_002211_006169_012173,
  1_004164_000001_000003_000005_000013_000029_000029_000039_000063_000411_000645_000415_002383_001989_011411,
  1_004174_000001_000001_000007_000009_000015_000009_000087_000095_000321_000709_000543_003831_002453_004167,
  1_004181_000001_000003_000001_000005_000031_000025_000005_000085_000239_000487_001613_003937_004661_003535,
  1_004185_000001_000003_000005_000011_000027_000041_000003_000201_000039_000091_001997_000237_005639_014703,
  1_004188_000001_000001_000007_000003_000027_000049_000087_000071_000473_000247_001007_000047_000475_005413,
  1_004202_000001_000003_000007_000015_000009_000057_000081_000149_000287_000333_001911_003417_001081_008995,
  1_004228_000001_000001_000005_000001_000003_000063_000043_000151_000097_000431_000961_001019_005153_002407,
  1_004232_000001_000001_000005_000005_000027_000021_000127_000161_000507_000311_000129_003489_001133_003241,
  1_004246_000001_000003_000007_000015_000021_000033_000117_000083_000497_000667_001399_000931_001695_008171,
  1_004252_000001_000001_000001_000013_000003_000039_000053_000027_000193_000993_000671_001871_007579_011457,
  1_004256_000001_000001_000005_000011_000007_000039_000081_000107_000195_000387_000849_000395_001317_006487,
  1_004286_000001_000003_000003_000003_000003_000015_000045_000127_000279_000111_000331_000357_004637_004697,
  1_004303_000001_000001_000003_000009_000021_000049_000047_000097_000061_000101_000181_001867_001201_014099,
  1_004306_000001_000001_000005_000011_000025_000019_000051_000051_000101_000451_000545_000101_007497_009141,
  1_004311_000001_000001_000001_000003_000013_000053_000119_000081_000377_000245_000765_000251_003757_016045,
  1_004317_000001_000001_000001_000003_000005_000061_000065_000037_000331_000925_001439_003219_002843_011397,
  1_004342_000001_000003_000005_000009_000023_000031_000095_000155_000083_000641_001129_000135_000477_001623,
  1_004346_000001_000001_000003_000009_000009_000061_000093_000011_000331_000585_000799_001417_001533_000463,
  1_004377_000001_000001_000007_000007_000021_000051_000061_000029_000467_000935_000011_003357_001087_012337]

def dirRows14_0_4 : List Nat := [
  1_004401_000001_000003_000003_000011_000001_000039_000103_000153_000351_000893_001823_000835_002149_004203,
  1_004407_000001_000001_000001_000009_000031_000013_000061_000235_000369_000359_000835_002067_002697_015289,
  1_004414_000001_000001_000007_000001_000015_000001_000107_000027_000201_000451_001521_000313_003195_003847,
  1_004422_000001_000001_000005_000013_000001_000027_000063_000137_000355_000489_002039_001015_002519_013797,
  1_004431_000001_000001_000007_000009_000029_000033_000023_000197_000049_000555_001087_003447_007299_015513,
  1_004434_000001_000003_000005_000011_000007_000037_000055_000063_000443_000573_001715_000631_003405_006155,
  1_004436_000001_000003_000003_000003_000031_000035_000051_000167_000225_000617_002007_002555_006819_012709,
  1_004443_000001_000001_000001_000013_000015_000005_000073_000085_000109_000043_001067_003941_001125_010269,
  1_004459_000001_000001_000007_000011_000017_000003_000127_000145_000279_000019_001007_003287_004751_012507,
  1_004461_000001_000003_000007_000003_000019_000001_000117_000111_000193_000435_000047_001801_000529_008547,
  1_004462_000001_000003_000003_000013_000001_000019_000101_000019_000469_000187_000207_001243_008153_003273,
  1_004473_000001_000003_000001_000005_000011_000051_000069_000189_000453_000775_000241_003331_004067_014759,
  1_004497_000001_000001_000001_000001_000023_000055_000113_000133_000497_000731_000391_002777_003529_000955,
  1_004504_000001_000003_000001_000011_000005_000049_000059_000035_000261_000949_000325_003595_007433_011099,
  1_004507_000001_000003_000005_000009_000013_000037_000103_000219_000329_000865_001787_002497_007249_009877,
  1_004525_000001_000003_000007_000009_000011_000033_000019_000255_000191_000935_001115_001901_001577_009623,
  1_004534_000001_000001_000005_000007_000029_000023_000077_000043_000283_000143_001211_000073_002835_010235,
  1_004538_000001_000001_000007_000003_000003_000027_000035_000173_000453_000425_001225_003023_002159_008433,
  1_004548_000001_000001_000001_000005_000027_000021_000035_000025_000071_000145_001545_000523_004527_007655,
  1_004552_000001_000001_000005_000003_000013_000049_000061_000157_000113_000775_000763_001785_000225_011851,
  1_004560_000001_000001_000003_000001_000031_000057_000097_000229_000291_000777_000213_004067_000921_008203,
  1_004575_000001_000001_000005_000001_000025_000013_000125_000123_000263_000207_000119_003111_003841_000843,
  1_004599_000001_000001_000007_000007_000025_000057_000081_000129_000031_000133_001869_002949_005563_014965,
  1_004612_000001_000003_000003_000007_000003_000051_000033_000127_000281_000425_001253_000405_007941_008799,
  1_004619_000001_000001_000003_000009_000003_000063_000093_000173_000255_000609_000049_000111_007785_015865,
  1_004640_000001_000001_000001_000003_000017_000059_000113_000055_000155_000789_001335_000177_003071_001851,
  1_004643_000001_000003_000007_000015_000015_000023_000035_000035_000131_000623_000047_000437_001337_009891,
  1_004677_000001_000003_000007_000005_000029_000057_000039_000031_000111_000271_000059_001473_000949_003899,
  1_004687_000001_000001_000003_000011_000017_000019_000041_000229_000259_000691_001455_003023_007455_009711,
  1_004723_000001_000003_000005_000011_000029_000013_000009_000165_000499_000355_001415_001395_007595_015571,
  1_004730_000001_000003_000001_000009_000005_000005_000025_000247_000185_000241_001325_003133_007471_002649,
  1_004736_000001_000003_000003_000011_000017_000029_000057_000061_000051_000203_000993_001837_003785_015163,
  1_004741_000001_000001_000007_000007_000021_000057_000079_000165_000277_000133_000093_001055_007169_015685,
  1_004763_000001_000001_000005_000003_000005_000017_000025_000177_000095_000323_000367_001359_004915_006409,
  1_004765_000001_000001_000001_000001_000011_000025_000115_000045_000373_000221_001483_000591_006561_004527,
  1_004770_000001_000003_000005_000003_000005_000023_000069_000077_000313_000473_001037_004045_003969_005445,
  1_004781_000001_000003_000001_000005_000001_000015_000073_000083_000439_000463_000203_000361_006835_001061,
  1_004808_000001_000001_000003_000011_000021_000005_000089_000233_000405_000253_000773_003901_006085_005677,
  1_004822_000001_000001_000003_000009_000015_000053_000071_000029_000101_000599_001073_000705_004507_012779,
  1_004828_000001_000001_000003_000001_000003_000009_000027_000097_000207_000859_000417_000735_002179_005071,
  1_004831_000001_000001_000001_000003_000013_000063_000065_000125_000195_000611_000649_002221_003143_000143,
  1_004842_000001_000003_000003_000015_000017_000057_000099_000119_000243_000407_001229_000813_005245_001893,
  1_004855_000001_000001_000001_000005_000027_000027_000049_000013_000313_000287_000473_002629_003509_011371,
  1_004859_000001_000001_000007_000007_000023_000003_000075_000059_000245_000689_001215_002375_003325_001593,
  1_004867_000001_000003_000001_000005_000021_000051_000043_000107_000091_000611_001405_000677_002087_009565,
  1_004870_000001_000003_000007_000011_000009_000027_000081_000101_000449_000201_001507_002217_006767_008059,
  1_004881_000001_000001_000003_000009_000013_000041_000021_000195_000421_000315_000347_002621_002359_009247,
  1_004893_000001_000001_000005_000007_000031_000045_000077_000229_000455_000575_001087_001147_002273_013773,
  1_004910_000001_000001_000001_000001_000009_000005_000087_000019_000207_000545_001435_000495_001299_004947,
  1_004917_000001_000001_000003_000003_000015_000009_000063_000067_000219_000735_001911_002361_006503_011977,
  1_004929_000001_000003_000001_000009_000031_000027_000103_000153_000081_000939_000461_002753_000697_000537,
  1_004939_000001_000003_000003_000009_000021_000053_000049_000211_000415_000817_000321_003775_002921_009473,
  1_004947_000001_000001_000007_000003_000023_000055_000015_000051_000435_001013_000073_003967_004575_013099,
  1_004949_000001_000001_000003_000007_000005_000027_000043_000225_000267_000021_001261_000603_006913_004421,
  1_004954_000001_000001_000007_000013_000025_000031_000101_000109_000237_000091_001587_001987_002795_006991,
  1_004972_000001_000001_000003_000013_000023_000051_000091_000089_000287_000039_001513_000463_006135_010469,
  1_004975_000001_000003_000003_000001_000009_000043_000125_000157_000369_000495_001849_000785_006357_006557,
  1_005000_000001_000003_000001_000013_000005_000025_000107_000139_000367_000239_001671_001239_007027_005291,
  1_005005_000001_000003_000005_000013_000011_000013_000035_000177_000045_000939_000251_000059_000333_013105,
  1_005029_000001_000003_000005_000007_000029_000057_000109_000227_000435_000739_000423_001941_003345_012731,
  1_005039_000001_000003_000003_000009_000023_000051_000019_000207_000069_000099_000955_000519_007305_002415,
  1_005044_000001_000001_000005_000013_000017_000001_000067_000201_000061_000403_001059_002915_002419_012773,
  1_005051_000001_000003_000001_000011_000017_000019_000025_000027_000207_000299_000143_001955_005669_002301,
  1_005056_000001_000001_000005_000003_000025_000057_000045_000255_000489_001011_001699_002637_005279_012211,
  1_005073_000001_000003_000003_000015_000007_000047_000113_000033_000511_000907_001815_001741_002091_013857,
  1_005096_000001_000003_000003_000005_000005_000027_000095_000003_000353_000253_000947_000393_001815_014551,
  1_005128_000001_000001_000005_000011_000029_000019_000063_000117_000293_000861_002039_000009_005999_006909,
  1_005134_000001_000003_000007_000003_000015_000063_000107_000173_000509_000817_000099_002825_000131_007917,
  1_005161_000001_000003_000001_000001_000029_000049_000033_000153_000119_000777_001315_003581_005675_004043,
  1_005179_000001_000003_000005_000015_000013_000011_000017_000147_000327_000305_000367_003237_005423_013757,
  1_005193_000001_000001_000005_000013_000001_000039_000035_000029_000025_000751_001365_002243_008181_007063,
  1_005199_000001_000003_000007_000011_000025_000053_000011_000111_000289_000755_001201_000691_003679_003725,
  1_005202_000001_000001_000001_000011_000011_000037_000033_000211_000395_000691_001817_000861_006485_012077,
  1_005204_000001_000003_000003_000011_000021_000003_000111_000171_000305_000561_001501_002011_007841_010931,
  1_005218_000001_000003_000007_000009_000009_000059_000109_000113_000031_000915_000103_001861_002779_010619,
  1_005247_000001_000001_000001_000001_000007_000025_000061_000097_000103_000723_001145_003105_000371_000339,
  1_005260_000001_000001_000007_000013_000017_000009_000113_000051_000233_000209_001117_000211_006969_002347,
  1_005271_000001_000001_000005_000009_000025_000043_000021_000217_000327_000735_000197_001063_000799_000801,
  1_005301_000001_000001_000007_000013_000009_000013_000073_000033_000415_000923_000863_001999_005383_008119,
  1_005305_000001_000003_000001_000005_000007_000033_000051_000185_000289_000967_001277_001011_000767_015505,
  1_005319_000001_000003_000003_000013_000021_000011_000105_000235_000343_001021_002009_002251_003865_006923,
  1_005326_000001_000003_000005_000009_000029_000011_000033_000017_000149_000155_001739_003039_007015_002401,
  1_005328_000001_000003_000007_000007_000017_000013_000089_000177_000297_000267_000545_003861_000329_013267,
  1_005333_000001_000003_000005_000015_000027_000033_000001_000231_000181_000557_000447_000379_007845_001295,
  1_005364_000001_000001_000005_000013_000003_000063_000059_000033_000263_000877_001867_001383_000641_007139,
  1_005376_000001_000003_000007_000005_000013_000051_000009_000113_000223_000605_001189_004063_006925_009563,
  1_005399_000001_000001_000001_000013_000005_000035_000083_000107_000295_000231_000265_000005_004087_006407,
  1_005416_000001_000001_000005_000001_000007_000025_000095_000137_000097_000987_001753_002781_001369_006903,
  1_005421_000001_000001_000005_000013_000019_000061_000077_000229_000193_000165_000811_000249_000079_010719,
  1_005427_000001_000003_000007_000007_000027_000009_000119_000193_000459_000043_001989_002959_003595_006341,
  1_005429_000001_000001_000005_000011_000005_000043_000035_000033_000025_000581_000897_000351_004201_003971,
  1_005430_000001_000001_000007_000011_000021_000029_000053_000045_000359_000197_000313_003825_006717_004077,
  1_005434_000001_000001_000001_000015_000003_000045_000099_000133_000357_000315_001159_000241_002463_011253,
  1_005441_000001_000001_000007_000011_000009_000033_000111_000085_000443_000601_000447_000337_006471_007029,
  1_005451_000001_000003_000007_000009_000013_000033_000025_000031_000009_000729_001763_004077_007575_007877,
  1_005465_000001_000003_000005_000013_000013_000037_000029_000103_000053_000229_000591_001073_001323_014405,
  1_005466_000001_000001_000005_000001_000017_000033_000015_000183_000473_000297_002003_000093_004955_001787,
  1_005471_000001_000001_000005_000013_000005_000029_000113_000161_000267_000451_001193_000149_000273_011809,
  1_005477_000001_000001_000001_000009_000017_000039_000047_000233_000165_000373_000955_002891_007523_007235,
  1_005492_000001_000001_000001_000003_000007_000021_000115_000205_000153_000449_000339_002073_001077_005749]

def dirRows14_0_5 : List Nat := [
  1_005495_000001_000001_000007_000013_000009_000039_000117_000187_000037_000753_000227_003519_007391_005751,
  1_005505_000001_000001_000001_000009_000005_000019_000041_000161_000141_000195_001719_003321_000005_012877,
  1_005515_000001_000003_000007_000011_000021_000013_000083_000055_000299_000075_001905_003765_004685_012297,
  1_005525_000001_000001_000007_000003_000003_000023_000111_000243_000187_000297_001061_002515_000977_009555,
  1_005529_000001_000003_000007_000003_000029_000011_000103_000177_000225_000875_001649_001401_006383_008309,
  1_005532_000001_000003_000005_000003_000003_000041_000071_000003_000373_000757_000701_002825_001521_013217,
  1_005539_000001_000001_000005_000003_000011_000005_000103_000227_000209_000723_001543_003895_006345_007901,
  1_005541_000001_000001_000005_000001_000009_000051_000077_000067_000359_000937_000557_000993_003871_003577,
  1_005556_000001_000003_000007_000001_000001_000015_000121_000239_000029_000113_001123_003877_006941_014129,
  1_005566_000001_000001_000005_000001_000027_000061_000083_000113_000185_000601_000947_003933_000381_013869,
  1_005568_000001_000001_000005_000003_000005_000037_000097_000031_000081_000367_000747_001811_005313_014151,
  1_005574_000001_000003_000005_000009_000027_000061_000087_000031_000185_000521_000837_000959_005001_003957,
  1_005595_000001_000003_000005_000003_000011_000061_000037_000019_000107_000749_001345_003829_006701_004315,
  1_005602_000001_000003_000001_000015_000013_000045_000101_000113_000243_000963_001861_003283_001419_012131,
  1_005611_000001_000001_000007_000001_000011_000063_000017_000117_000271_000819_000677_000669_001991_012511,
  1_005616_000001_000001_000001_000013_000013_000033_000041_000073_000187_000537_000993_003147_001013_016063,
  1_005622_000001_000003_000001_000001_000025_000021_000107_000081_000117_000917_000113_000349_004475_009149,
  1_005628_000001_000001_000001_000011_000021_000021_000029_000251_000125_000681_000141_002893_005843_014359,
  1_005655_000001_000003_000003_000001_000005_000041_000085_000163_000387_000029_001593_000221_002769_010809,
  1_005662_000001_000003_000005_000011_000001_000017_000069_000127_000273_000449_001855_002971_007031_010583,
  1_005675_000001_000001_000005_000007_000001_000061_000009_000211_000123_000563_000111_001883_005801_002191,
  1_005689_000001_000001_000003_000011_000011_000051_000001_000081_000405_000803_002017_000161_005429_000731,
  1_005722_000001_000001_000007_000009_000015_000055_000065_000051_000459_000485_001539_003135_002929_007867,
  1_005724_000001_000001_000007_000011_000003_000045_000015_000007_000331_000417_001813_004009_001341_010965,
  1_005728_000001_000001_000001_000005_000009_000029_000089_000121_000277_000509_001989_001293_004787_016097,
  1_005731_000001_000001_000003_000009_000017_000045_000097_000197_000339_000943_001377_002947_005833_000007,
  1_005746_000001_000001_000007_000009_000015_000061_000075_000233_000401_000705_000825_002521_003787_014387,
  1_005764_000001_000001_000007_000015_000025_000057_000003_000043_000361_000459_001551_001859_006787_002293,
  1_005771_000001_000003_000003_000011_000011_000035_000091_000065_000043_000509_001829_001149_004801_004109,
  1_005781_000001_000003_000005_000009_000015_000003_000081_000109_000231_000481_000417_002505_000315_006693,
  1_005801_000001_000001_000003_000009_000003_000007_000107_000221_000297_000543_000149_000579_000927_000079,
  1_005809_000001_000003_000001_000011_000017_000003_000081_000137_000157_000587_000741_001277_002631_003953,
  1_005810_000001_000001_000007_000005_000013_000043_000117_000019_000495_000185_001105_000605_005249_011099,
  1_005812_000001_000001_000007_000009_000023_000055_000091_000213_000021_000779_000857_002047_007813_010053,
  1_005841_000001_000001_000001_000001_000027_000007_000039_000181_000063_000519_001073_003147_004111_000363,
  1_005848_000001_000003_000007_000009_000015_000061_000007_000139_000495_000805_001545_003789_002411_003989,
  1_005853_000001_000001_000003_000001_000025_000011_000023_000241_000167_000607_000479_000153_007787_013929,
  1_005854_000001_000003_000005_000015_000029_000035_000045_000071_000457_000297_000883_003021_005361_015427,
  1_005858_000001_000003_000001_000007_000029_000027_000093_000241_000427_000089_001185_000037_003863_014095,
  1_005892_000001_000003_000001_000005_000005_000045_000051_000015_000235_000889_001649_002331_002713_010943,
  1_005907_000001_000001_000003_000011_000011_000015_000071_000085_000135_000163_000139_001147_001043_003195,
  1_005910_000001_000003_000005_000013_000003_000043_000071_000131_000473_000933_000569_002491_007751_001865,
  1_005913_000001_000001_000007_000009_000021_000037_000105_000227_000329_000509_001319_000307_001557_014625,
  1_005920_000001_000001_000003_000013_000015_000001_000025_000093_000335_000953_000769_004039_000369_010727,
  1_005929_000001_000003_000007_000005_000017_000021_000059_000089_000437_000679_000437_001543_007663_005005,
  1_005949_000001_000001_000007_000015_000027_000049_000125_000013_000397_000877_001087_002191_004711_009065,
  1_005952_000001_000001_000007_000005_000015_000047_000115_000125_000187_000031_001003_002575_005397_003883,
  1_005955_000001_000001_000007_000011_000015_000001_000127_000207_000383_000707_000183_001053_003123_014071,
  1_005962_000001_000003_000003_000001_000031_000053_000015_000019_000477_000245_000777_001613_005813_007443,
  1_005975_000001_000003_000001_000011_000023_000059_000065_000023_000493_000157_001389_002833_004535_003907,
  1_005985_000001_000001_000007_000001_000019_000007_000051_000135_000327_000441_001841_003091_003451_014381,
  1_005997_000001_000001_000007_000007_000003_000037_000029_000249_000437_000319_001693_000945_007639_005923,
  1_005998_000001_000003_000007_000015_000007_000061_000081_000127_000383_000099_000023_003833_003973_007651,
  1_006012_000001_000003_000001_000007_000007_000021_000119_000185_000243_000619_001363_002033_004835_005089,
  1_006016_000001_000003_000001_000001_000003_000027_000063_000145_000271_000735_000695_003981_003049_005433,
  1_006026_000001_000003_000003_000001_000003_000029_000079_000211_000279_000819_000501_003665_001455_010455,
  1_006036_000001_000001_000003_000003_000031_000061_000113_000005_000411_000091_000489_003257_005939_006715,
  1_006040_000001_000001_000005_000001_000023_000011_000103_000089_000377_000441_000043_000967_003383_008717,
  1_006045_000001_000001_000005_000013_000029_000039_000097_000189_000197_000621_001755_000333_006783_009711,
  1_006055_000001_000001_000005_000013_000027_000017_000097_000197_000351_000799_000335_000765_005329_012549,
  1_006059_000001_000001_000005_000011_000029_000017_000009_000211_000127_000633_001187_003965_004145_012667,
  1_006088_000001_000001_000007_000005_000027_000029_000065_000115_000287_000325_000461_000005_000899_002027,
  1_006115_000001_000001_000001_000005_000027_000017_000031_000013_000231_000627_001163_000649_001693_009975,
  1_006124_000001_000003_000001_000015_000007_000049_000113_000123_000427_000603_000347_002785_007129_004645,
  1_006127_000001_000001_000003_000007_000001_000033_000113_000105_000411_000939_000205_003965_004361_004649,
  1_006132_000001_000001_000001_000001_000005_000021_000035_000159_000275_000929_001193_003205_004787_003515,
  1_006146_000001_000001_000001_000005_000001_000021_000029_000191_000275_000233_001239_000515_004349_014989,
  1_006158_000001_000001_000005_000011_000027_000043_000111_000083_000153_000577_001537_000149_000231_000839,
  1_006169_000001_000003_000005_000013_000021_000019_000057_000069_000087_000163_000271_003535_001057_008517,
  1_006206_000001_000003_000003_000013_000017_000049_000065_000045_000457_000241_000391_002033_002507_007771,
  1_006228_000001_000001_000005_000007_000011_000019_000079_000133_000341_000761_000027_003905_004137_014363,
  1_006237_000001_000003_000003_000013_000019_000001_000011_000139_000249_000245_001393_002151_002857_001665,
  1_006244_000001_000001_000003_000015_000011_000007_000127_000047_000385_001007_000713_002235_005489_008755,
  1_006247_000001_000003_000005_000013_000019_000021_000021_000167_000405_000655_001653_000889_007367_004177,
  1_006256_000001_000001_000005_000003_000019_000063_000099_000039_000089_000415_000951_002863_006569_003797,
  1_006281_000001_000001_000001_000013_000031_000029_000119_000035_000311_000839_001749_000941_007487_002385,
  1_006282_000001_000003_000007_000003_000017_000003_000097_000143_000465_000345_001457_002201_005329_000359,
  1_006284_000001_000003_000007_000011_000001_000015_000003_000115_000335_000567_001749_001811_003491_015939,
  1_006296_000001_000001_000003_000013_000003_000021_000007_000141_000149_000571_001877_000473_002143_009569,
  1_006299_000001_000003_000003_000011_000023_000061_000047_000179_000297_000453_000181_003405_002981_013409,
  1_006302_000001_000003_000001_000013_000001_000043_000005_000201_000371_001003_000367_002709_007675_014973,
  1_006325_000001_000003_000003_000015_000029_000017_000019_000241_000495_000317_001135_002227_006457_004783,
  1_006349_000001_000003_000003_000007_000029_000009_000057_000095_000261_000531_001717_003389_007991_003793,
  1_006352_000001_000001_000001_000005_000031_000043_000073_000119_000499_000589_001529_003337_004097_015641,
  1_006362_000001_000001_000007_000009_000029_000043_000127_000091_000243_000979_001325_002835_002787_009445,
  1_006383_000001_000001_000007_000005_000009_000003_000115_000199_000219_000901_000747_001077_003197_002443,
  1_006386_000001_000003_000005_000001_000003_000043_000007_000117_000297_000313_001043_001579_005099_013289,
  1_006395_000001_000001_000007_000011_000029_000033_000015_000121_000131_000579_000317_001871_001121_011653,
  1_006397_000001_000001_000005_000009_000025_000025_000043_000089_000355_001011_001385_002901_006387_001653,
  1_006415_000001_000001_000001_000009_000005_000047_000061_000165_000085_000757_001397_001177_001657_004899,
  1_006424_000001_000001_000003_000009_000011_000049_000015_000139_000261_000613_000931_001299_002777_002835,
  1_006429_000001_000001_000001_000005_000003_000055_000083_000227_000125_000581_001607_001171_006681_014463,
  1_006439_000001_000003_000005_000013_000005_000055_000003_000247_000493_000155_001073_003743_005719_004019,
  1_006451_000001_000001_000007_000001_000011_000023_000013_000075_000399_000847_000499_001643_006977_003699,
  1_006489_000001_000003_000001_000009_000011_000041_000047_000131_000313_000627_000481_002469_003281_000979,
  1_006496_000001_000003_000005_000013_000029_000003_000065_000101_000011_000029_001807_000153_001487_016109,
  1_006502_000001_000001_000005_000009_000013_000031_000083_000195_000351_000355_000467_003871_003085_004441,
  1_006511_000001_000003_000005_000003_000019_000021_000111_000179_000143_000361_001619_001547_003409_006905,
  1_006514_000001_000001_000005_000009_000031_000001_000093_000199_000491_000135_001627_002559_001389_014561,
  1_006520_000001_000003_000003_000009_000025_000053_000003_000105_000039_000445_000259_001045_001129_009153]

def dirRows14_0_6 : List Nat := [
  1_006523_000001_000001_000005_000009_000019_000063_000071_000009_000073_000435_001377_004015_001821_006453,
  1_006529_000001_000003_000007_000013_000019_000013_000037_000247_000391_000023_001491_001257_006395_000237,
  1_006532_000001_000001_000003_000003_000019_000055_000109_000023_000227_000747_000729_002221_000727_002209,
  1_006547_000001_000001_000005_000011_000025_000021_000075_000037_000219_000355_001005_001895_007039_005225,
  1_006549_000001_000003_000005_000013_000011_000043_000009_000067_000087_000797_001077_000245_004521_011845,
  1_006598_000001_000003_000005_000003_000015_000029_000127_000237_000277_000373_001859_003083_000587_001123,
  1_006601_000001_000001_000007_000015_000013_000007_000103_000053_000013_000965_001497_000775_003439_001501,
  1_006610_000001_000003_000003_000015_000017_000013_000097_000169_000067_000953_000189_002739_001459_010543,
  1_006622_000001_000001_000005_000001_000017_000039_000015_000127_000327_000989_001471_003235_002801_015311,
  1_006632_000001_000001_000001_000015_000005_000037_000055_000155_000047_000463_001851_003467_002765_009359,
  1_006655_000001_000003_000003_000015_000001_000013_000093_000239_000291_000115_000365_000061_000395_015853,
  1_006665_000001_000001_000005_000001_000019_000027_000061_000095_000105_000369_001557_000961_006917_003621,
  1_006666_000001_000003_000003_000009_000007_000035_000115_000053_000111_000345_001145_001687_003401_012107,
  1_006695_000001_000001_000001_000005_000007_000031_000063_000019_000373_000079_001369_003037_002835_004439,
  1_006701_000001_000003_000007_000009_000011_000017_000029_000033_000331_000447_001981_003333_006535_006557,
  1_006709_000001_000003_000003_000005_000011_000041_000029_000043_000365_000279_001919_000945_000179_001987,
  1_006710_000001_000003_000001_000013_000007_000007_000025_000033_000103_000367_001267_000763_005691_008643,
  1_006741_000001_000003_000001_000005_000011_000015_000003_000213_000511_000211_001069_004047_003335_012729,
  1_006745_000001_000001_000003_000001_000005_000011_000027_000201_000361_000537_000679_003709_000293_002997,
  1_006758_000001_000001_000003_000001_000025_000015_000019_000185_000369_000577_001625_000655_002363_003861,
  1_006767_000001_000001_000005_000005_000001_000047_000061_000045_000411_000597_000955_001007_003775_005809,
  1_006772_000001_000001_000005_000003_000027_000051_000101_000167_000429_000333_001703_003541_002947_003695,
  1_006782_000001_000003_000005_000005_000001_000053_000017_000063_000141_000215_001223_003129_000635_015919,
  1_006797_000001_000003_000003_000001_000023_000031_000025_000011_000195_000241_000995_003941_000573_013855,
  1_006800_000001_000003_000003_000007_000017_000013_000071_000203_000465_000479_001857_001493_008067_007113,
  1_006843_000001_000001_000005_000003_000011_000057_000009_000059_000225_000691_000425_002423_006031_006631,
  1_006845_000001_000003_000007_000001_000029_000057_000103_000123_000401_000807_000471_002759_005113_015937,
  1_006860_000001_000003_000001_000001_000003_000001_000067_000123_000157_000655_000519_000323_001853_015041,
  1_006865_000001_000001_000007_000005_000011_000011_000105_000135_000247_000689_001141_002347_007113_009347,
  1_006878_000001_000001_000003_000011_000015_000037_000087_000003_000209_000575_001521_003863_003893_000211,
  1_006887_000001_000003_000001_000003_000029_000055_000115_000031_000019_000195_000985_003275_000363_009801,
  1_006888_000001_000001_000003_000009_000013_000031_000057_000251_000201_000275_001751_000389_001463_013159,
  1_006901_000001_000003_000005_000015_000019_000051_000127_000255_000397_000243_000029_003007_007845_004687,
  1_006906_000001_000001_000007_000015_000009_000037_000039_000217_000509_000137_001123_003361_006323_005323,
  1_006940_000001_000003_000007_000005_000025_000003_000093_000203_000345_000581_000261_002811_004829_006977,
  1_006947_000001_000001_000007_000001_000015_000041_000051_000227_000447_000893_001209_003865_005229_004277,
  1_006953_000001_000001_000001_000005_000031_000019_000023_000195_000359_000853_000595_000337_002503_016371,
  1_006954_000001_000003_000007_000005_000005_000013_000089_000157_000351_000777_000151_003565_004219_007423,
  1_006959_000001_000001_000001_000005_000007_000001_000009_000089_000175_000909_001523_002295_007949_006739,
  1_006961_000001_000003_000005_000015_000027_000017_000011_000235_000019_000105_000457_000465_003819_011335,
  1_006964_000001_000003_000001_000013_000003_000041_000085_000221_000451_000613_000543_002265_006831_001725,
  1_006991_000001_000001_000007_000007_000003_000029_000009_000197_000455_000665_000343_001811_005395_000393,
  1_006993_000001_000001_000003_000013_000029_000055_000071_000095_000475_000615_002029_000123_000413_016127,
  1_006999_000001_000001_000005_000009_000015_000061_000009_000051_000105_000271_000511_002801_000693_011839,
  1_007016_000001_000001_000007_000013_000029_000009_000105_000059_000377_000635_000717_004033_006963_010541,
  1_007029_000001_000001_000001_000013_000007_000013_000059_000017_000335_000355_000077_003665_007003_009521,
  1_007036_000001_000003_000001_000001_000023_000043_000051_000209_000151_000365_001021_002859_003937_002899,
  1_007045_000001_000001_000003_000003_000031_000041_000111_000107_000171_000433_001233_000505_002971_006927,
  1_007076_000001_000003_000007_000013_000017_000025_000127_000195_000257_000551_001867_002145_003695_014567,
  1_007083_000001_000001_000005_000013_000013_000045_000039_000195_000055_000991_001981_001043_005875_000581,
  1_007094_000001_000003_000003_000011_000025_000031_000091_000153_000415_000449_001301_000563_007755_010671,
  1_007097_000001_000001_000003_000005_000031_000063_000001_000157_000229_000949_000971_000137_006589_008387,
  1_007123_000001_000003_000007_000015_000025_000007_000089_000133_000073_000497_001361_000613_000455_001005,
  1_007130_000001_000003_000003_000001_000013_000005_000119_000093_000175_000511_001923_000763_007573_007545,
  1_007139_000001_000001_000003_000015_000027_000059_000049_000205_000497_000485_000117_002523_004495_015153,
  1_007145_000001_000003_000007_000009_000015_000047_000111_000031_000363_000011_000475_002931_006813_001259,
  1_007146_000001_000001_000005_000005_000001_000035_000095_000225_000017_000991_000809_002601_006455_013803,
  1_007178_000001_000001_000005_000005_000015_000001_000001_000171_000433_000887_001813_003431_002471_007803,
  1_007186_000001_000003_000003_000015_000001_000015_000043_000179_000015_000949_001881_001027_006989_008955,
  1_007192_000001_000003_000007_000013_000001_000003_000049_000183_000373_000175_001733_000913_000929_001065,
  1_007198_000001_000003_000005_000007_000015_000051_000107_000115_000323_000357_000167_002069_007541_009601,
  1_007222_000001_000001_000003_000005_000005_000021_000031_000107_000021_000299_001937_000043_003673_008155,
  1_007269_000001_000003_000005_000011_000009_000055_000035_000113_000029_000099_000161_001607_008141_004951,
  1_007270_000001_000003_000007_000015_000025_000007_000113_000179_000213_000019_001717_001027_002021_011263,
  1_007276_000001_000001_000005_000001_000031_000033_000085_000111_000067_000095_002013_002217_000871_005329,
  1_007287_000001_000001_000001_000007_000007_000063_000067_000145_000495_000419_001945_003437_006255_000151,
  1_007307_000001_000003_000005_000007_000017_000037_000097_000187_000215_000399_001603_002195_005923_000769,
  1_007315_000001_000001_000003_000009_000025_000001_000119_000193_000385_000861_002005_002769_000675_000767,
  1_007334_000001_000003_000001_000015_000019_000007_000005_000227_000173_000383_000289_000461_000579_003689,
  1_007340_000001_000003_000001_000011_000001_000037_000093_000239_000465_000891_001479_000921_004439_015265,
  1_007351_000001_000001_000001_000013_000027_000061_000099_000069_000279_000655_001853_001593_006319_009003,
  1_007352_000001_000001_000001_000011_000005_000007_000019_000007_000387_000303_000321_000931_005809_016029,
  1_007357_000001_000001_000001_000015_000021_000055_000043_000107_000217_000687_000019_003225_003419_009991,
  1_007360_000001_000001_000007_000005_000007_000055_000079_000041_000317_000357_000859_001205_000191_009395,
  1_007363_000001_000001_000003_000011_000003_000043_000007_000133_000115_000995_001205_001055_004153_010481,
  1_007384_000001_000001_000007_000011_000031_000057_000053_000009_000459_000223_001969_003513_007033_008505,
  1_007396_000001_000001_000003_000007_000017_000011_000115_000255_000281_000097_001685_002039_002845_011637,
  1_007403_000001_000003_000007_000001_000023_000041_000069_000199_000053_000105_000657_001453_004429_001101,
  1_007406_000001_000003_000001_000005_000011_000033_000091_000131_000191_000073_000823_000117_001053_000127,
  1_007425_000001_000003_000007_000011_000007_000003_000021_000065_000187_000103_001393_001797_006673_001409,
  1_007437_000001_000003_000007_000001_000031_000025_000025_000161_000299_000275_000417_002267_006861_001255,
  1_007445_000001_000003_000005_000013_000005_000011_000061_000155_000115_001001_000747_000889_003235_005709,
  1_007450_000001_000003_000007_000007_000007_000001_000097_000177_000507_000273_001781_003455_005123_015607,
  1_007455_000001_000001_000007_000005_000001_000007_000059_000049_000147_000343_000097_003517_005611_008705,
  1_007461_000001_000001_000005_000013_000021_000029_000013_000021_000503_000515_001217_003905_005513_015849,
  1_007466_000001_000003_000001_000009_000009_000039_000065_000111_000385_000757_000583_002225_002039_002817,
  1_007488_000001_000003_000003_000015_000023_000017_000063_000169_000503_000949_000849_000461_006799_000669,
  1_007494_000001_000001_000001_000003_000001_000041_000063_000159_000251_000457_000521_001653_000623_003287,
  1_007515_000001_000001_000007_000003_000009_000001_000041_000037_000441_000921_001415_002955_005841_001451,
  1_007517_000001_000001_000005_000011_000023_000029_000089_000185_000413_000357_001131_002369_003835_006233,
  1_007521_000001_000001_000005_000015_000027_000035_000017_000073_000315_000911_001761_000797_005349_003219,
  1_007536_000001_000003_000007_000011_000021_000009_000119_000233_000249_000901_000189_003625_002691_016201,
  1_007546_000001_000003_000003_000013_000029_000061_000105_000145_000187_000079_000609_000321_004289_003933,
  1_007569_000001_000003_000001_000015_000019_000063_000013_000185_000115_000219_001021_001205_004273_011521,
  1_007591_000001_000001_000003_000003_000023_000031_000093_000153_000087_000947_001039_000469_004047_008869,
  1_007592_000001_000001_000001_000001_000009_000001_000085_000003_000015_000995_000455_002769_006781_016203,
  1_007598_000001_000001_000003_000003_000013_000007_000055_000215_000185_000367_000765_000441_004497_001521,
  1_007612_000001_000001_000001_000005_000001_000031_000013_000095_000417_000735_000975_003407_004871_016133,
  1_007623_000001_000001_000003_000003_000005_000043_000111_000107_000419_000515_001075_003597_001187_004143,
  1_007632_000001_000001_000003_000013_000031_000051_000083_000163_000489_000887_000863_000599_000009_013861]

def dirRows14_0_7 : List Nat := [
  1_007637_000001_000003_000003_000003_000019_000027_000091_000115_000103_000969_000593_003667_001867_015433,
  1_007644_000001_000003_000003_000013_000007_000025_000047_000141_000057_000553_001785_001709_007453_002209,
  1_007657_000001_000003_000001_000013_000011_000013_000071_000219_000005_000451_002043_001605_006439_012203,
  1_007665_000001_000003_000001_000013_000005_000057_000061_000223_000401_000413_000321_001365_000619_012477,
  1_007672_000001_000003_000001_000005_000025_000057_000089_000211_000195_000455_001165_003979_006313_005751,
  1_007682_000001_000001_000001_000009_000031_000023_000071_000145_000089_000285_001593_001171_005685_015459,
  1_007699_000001_000003_000007_000007_000009_000041_000065_000251_000065_000137_001577_003027_005555_002865,
  1_007702_000001_000001_000005_000013_000027_000005_000125_000021_000171_000647_000983_002921_006623_005695,
  1_007724_000001_000001_000001_000013_000015_000009_000117_000197_000123_000953_001191_003657_005757_015957,
  1_007749_000001_000001_000003_000007_000029_000013_000005_000175_000395_000127_000679_000255_006055_007639,
  1_007753_000001_000003_000007_000015_000015_000051_000077_000147_000319_000147_001775_003983_003175_005723,
  1_007754_000001_000003_000003_000003_000007_000011_000119_000041_000043_000153_000975_000679_003081_010359,
  1_007761_000001_000001_000005_000013_000003_000007_000065_000067_000063_000399_001561_002789_002083_012289,
  1_007771_000001_000001_000007_000003_000019_000053_000103_000067_000035_000865_000161_000093_002533_003851,
  1_007777_000001_000001_000001_000011_000031_000009_000029_000189_000199_000817_001571_000395_000345_003777,
  1_007784_000001_000003_000005_000011_000031_000003_000009_000067_000277_000735_000181_002777_003009_007233,
  1_007804_000001_000001_000003_000003_000017_000007_000017_000003_000375_000933_000237_003919_005409_003355,
  1_007807_000001_000003_000003_000005_000009_000027_000019_000077_000221_000003_001965_000309_003001_015977,
  1_007808_000001_000001_000005_000001_000003_000033_000035_000133_000037_000709_000627_001705_002525_004307,
  1_007818_000001_000001_000007_000003_000025_000021_000105_000055_000375_000681_000881_001299_005879_000459,
  1_007835_000001_000003_000007_000001_000013_000007_000113_000103_000313_000515_001041_003683_004619_005093,
  1_007842_000001_000001_000003_000007_000019_000043_000083_000037_000039_000133_001759_001171_001521_013717,
  1_007865_000001_000001_000007_000013_000007_000035_000015_000155_000293_001001_000157_003883_000405_001797,
  1_007868_000001_000001_000003_000003_000013_000019_000125_000049_000333_000387_000339_001815_004503_007359,
  1_007880_000001_000001_000003_000013_000019_000019_000105_000225_000151_000027_001251_000885_004815_007863,
  1_007883_000001_000001_000001_000005_000007_000059_000017_000145_000077_000117_001355_001429_002301_016177,
  1_007891_000001_000003_000003_000013_000005_000031_000119_000167_000459_000727_001799_002537_000695_013637,
  1_007897_000001_000003_000003_000003_000027_000051_000107_000085_000267_000057_001279_000823_006247_003603,
  1_007907_000001_000001_000007_000015_000029_000017_000067_000197_000215_000465_000109_003461_005269_015287,
  1_007910_000001_000001_000003_000005_000011_000015_000123_000053_000293_000797_001105_001777_006509_000217,
  1_007924_000001_000003_000003_000013_000003_000005_000109_000053_000203_000693_000871_000135_000369_011149,
  1_007933_000001_000003_000005_000015_000017_000043_000081_000235_000119_000817_001777_000261_008049_004251,
  1_007934_000001_000001_000003_000007_000007_000013_000087_000099_000481_000931_001507_000651_005267_008281,
  1_007942_000001_000003_000001_000013_000027_000043_000077_000225_000341_000163_000933_000429_004943_007781,
  1_007948_000001_000001_000007_000001_000001_000049_000085_000211_000449_000479_001395_000787_005653_014891,
  1_007959_000001_000001_000005_000009_000025_000013_000049_000085_000125_000085_001281_003365_004305_011791,
  1_007984_000001_000003_000001_000013_000003_000031_000117_000039_000043_000151_000663_000669_001571_005207,
  1_007994_000001_000003_000007_000015_000017_000007_000079_000163_000037_000841_001799_001787_004501_003785,
  1_007999_000001_000001_000003_000009_000001_000023_000067_000191_000449_000931_001521_002705_000887_007037,
  1_008014_000001_000001_000001_000001_000005_000013_000055_000161_000419_000577_001703_002589_002651_002873,
  1_008021_000001_000003_000003_000003_000005_000019_000037_000169_000069_001003_001755_003101_001469_008583,
  1_008041_000001_000001_000001_000001_000011_000033_000105_000079_000283_000091_000299_000835_003193_005593,
  1_008049_000001_000003_000003_000013_000025_000021_000081_000213_000465_000475_000331_000457_000061_009511,
  1_008050_000001_000001_000003_000011_000001_000011_000077_000095_000455_000949_001999_001833_001275_005631,
  1_008068_000001_000001_000001_000001_000015_000025_000051_000137_000275_000451_001179_003595_005177_007105,
  1_008080_000001_000003_000003_000003_000003_000059_000079_000143_000393_000583_000349_003039_007079_014245,
  1_008095_000001_000001_000007_000009_000021_000011_000123_000105_000053_000297_000803_004025_005421_014527,
  1_008102_000001_000003_000007_000011_000021_000015_000103_000109_000311_000321_001217_002777_005457_001823,
  1_008106_000001_000003_000005_000011_000019_000031_000079_000089_000295_000413_000817_000499_003699_014411,
  1_008120_000001_000001_000001_000005_000011_000003_000081_000013_000315_000841_001543_000411_006883_006347,
  1_008133_000001_000003_000003_000011_000023_000043_000023_000131_000017_000517_000995_002687_007443_015085,
  1_008134_000001_000001_000001_000001_000011_000057_000073_000009_000123_000905_001763_001789_003701_007131,
  1_008143_000001_000001_000003_000005_000009_000053_000099_000229_000043_000207_000625_001583_006727_015249,
  1_008162_000001_000001_000007_000007_000017_000039_000091_000001_000297_000711_000225_000513_007391_000291,
  1_008168_000001_000001_000007_000011_000007_000055_000111_000129_000423_000521_001807_003015_001449_012321,
  1_008179_000001_000003_000007_000003_000013_000009_000125_000187_000011_000485_000647_000275_003495_011989]

/-- Rows with 14 initial numbers, part 0. -/
def dir14_0 : List (List Nat) := [
  dirRows14_0_0,
  dirRows14_0_1,
  dirRows14_0_2,
  dirRows14_0_3,
  dirRows14_0_4,
  dirRows14_0_5,
  dirRows14_0_6,
  dirRows14_0_7]

end SALib.Data
