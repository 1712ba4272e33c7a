/-! # Direction-number table, rows 1866 to 3665

Generated from `src/SALib/sample/directions.py` lines 1868-3667.  One row per line: a leading 1, then
every number of the row padded to six digits (so the row `(7, 1, 1, 7, 11, 19)` is
`1_000007_000001_000001_000007_000011_000019`).  Rows are grouped by the number `s` of initial numbers. -/

namespace SALib.Data

def dirRows15_0_0 : List Nat := [
  1_000001_000001_000001_000003_000011_000011_000025_000049_000033_000361_000105_000271_003841_004837_002437_030181,
  1_000008_000001_000003_000005_000001_000027_000015_000119_000035_000159_000273_001489_003157_005433_003337_026859,
  1_000011_000001_000003_000005_000013_000023_000031_000097_000145_000041_000605_001455_000059_005389_005527_014447,
  1_000022_000001_000001_000007_000009_000007_000041_000061_000193_000353_000879_001805_000581_005447_011177_007331,
  1_000026_000001_000001_000007_000011_000029_000019_000055_000207_000361_000759_000063_002255_002119_014671_021783,
  1_000047_000001_000003_000001_000013_000017_000007_000073_000179_000103_000023_000917_001205_004925_001691_005419,
  1_000059_000001_000003_000005_000003_000015_000003_000009_000109_000227_000861_000867_003529_001535_000489_022873,
  1_000064_000001_000003_000003_000009_000015_000015_000095_000193_000385_000997_001525_001865_001425_004079_014771,
  1_000067_000001_000001_000003_000005_000005_000029_000049_000171_000171_000623_001167_003743_001809_012009_007043,
  1_000073_000001_000003_000007_000005_000023_000011_000087_000183_000299_000555_001857_000489_003505_009161_028763,
  1_000082_000001_000003_000005_000009_000019_000021_000085_000127_000337_000439_001183_001891_001877_004373_010451,
  1_000097_000001_000003_000007_000013_000027_000017_000029_000083_000463_000385_001167_003453_004523_004759_009321,
  1_000103_000001_000001_000003_000007_000021_000059_000065_000083_000177_000763_000317_002913_007527_005967_017167,
  1_000110_000001_000001_000007_000015_000013_000027_000049_000035_000253_000101_001699_000355_002181_010859_024221,
  1_000115_000001_000001_000005_000001_000017_000017_000081_000091_000349_000655_001373_002225_000945_000899_031801,
  1_000122_000001_000003_000007_000011_000005_000001_000081_000053_000215_000587_000167_004045_005671_005597_013529,
  1_000128_000001_000003_000005_000015_000001_000009_000059_000235_000315_000195_000909_002237_000505_010415_028145,
  1_000138_000001_000001_000001_000003_000009_000031_000041_000043_000275_000921_000025_000671_005737_011241_004193,
  1_000146_000001_000003_000003_000013_000029_000013_000095_000213_000317_000995_001489_003779_003043_008569_028823,
  1_000171_000001_000001_000007_000005_000009_000049_000125_000241_000087_000153_001673_003849_007253_001715_011627,
  1_000174_000001_000001_000003_000009_000027_000027_000019_000223_000063_000463_001095_001395_006643_011589_002145,
  1_000176_000001_000001_000003_000015_000021_000017_000045_000023_000357_000011_001307_001791_002481_002123_024341,
  1_000182_000001_000003_000005_000015_000031_000053_000117_000051_000433_000193_001239_003329_002403_012745_032219,
  1_000194_000001_000001_000005_000009_000007_000027_000009_000115_000417_000579_000083_000173_004717_015665_027463,
  1_000208_000001_000003_000005_000007_000009_000009_000031_000035_000249_000567_000331_000905_005101_014817_014255,
  1_000211_000001_000003_000007_000003_000001_000061_000029_000129_000119_000421_001597_002987_003041_007629_023451,
  1_000220_000001_000001_000007_000009_000013_000001_000099_000105_000107_000509_000989_002259_001009_006827_008903,
  1_000229_000001_000003_000005_000015_000011_000029_000085_000029_000265_000105_002035_003349_003543_013903_010213,
  1_000230_000001_000003_000001_000001_000025_000019_000053_000139_000467_000485_000491_003067_007353_013861_025819,
  1_000239_000001_000001_000005_000003_000003_000043_000041_000185_000045_000463_000351_002823_002519_006705_011395,
  1_000254_000001_000003_000007_000013_000011_000015_000087_000221_000427_000673_001631_000599_003259_010691_031283,
  1_000265_000001_000003_000005_000011_000009_000009_000015_000049_000275_000335_001613_003587_005309_014849_026475,
  1_000285_000001_000003_000007_000009_000029_000013_000079_000225_000381_000781_001411_002761_007157_014983_019717,
  1_000290_000001_000001_000007_000011_000029_000025_000117_000183_000101_000651_000653_003157_000445_014389_023293,
  1_000319_000001_000001_000001_000003_000005_000033_000073_000155_000473_000387_000591_002045_005965_016299_031499,
  1_000324_000001_000003_000001_000007_000011_000033_000029_000021_000491_000937_000729_004075_000975_002461_018991,
  1_000327_000001_000003_000007_000015_000029_000039_000105_000111_000173_000943_000069_000295_008175_013037_026131,
  1_000333_000001_000001_000005_000015_000007_000005_000097_000147_000105_000887_000443_002595_005889_010753_001619,
  1_000357_000001_000003_000003_000015_000011_000045_000087_000207_000353_000909_001847_000323_002283_012885_016415,
  1_000364_000001_000001_000005_000003_000019_000033_000043_000079_000115_000653_000359_002873_004609_012439_006339,
  1_000395_000001_000003_000007_000009_000017_000061_000049_000227_000291_000069_001753_003899_000483_003187_029041,
  1_000397_000001_000003_000005_000003_000025_000035_000061_000211_000393_000199_000691_001779_006295_013371_015817,
  1_000405_000001_000003_000007_000005_000007_000023_000037_000091_000245_000915_000579_000867_006193_001063_017363,
  1_000409_000001_000003_000007_000007_000023_000051_000041_000063_000375_000003_000159_001889_004419_001687_017977,
  1_000419_000001_000001_000001_000007_000013_000011_000053_000043_000317_000325_001749_002423_004123_008595_020773,
  1_000422_000001_000001_000007_000007_000009_000009_000061_000113_000437_000213_001407_000645_004345_000807_030411,
  1_000431_000001_000003_000003_000011_000017_000039_000017_000113_000391_000385_000581_002023_007449_010153_022033,
  1_000433_000001_000001_000003_000005_000029_000031_000101_000215_000379_000377_001113_002855_007147_014377_025515,
  1_000436_000001_000003_000005_000005_000013_000003_000121_000125_000227_000969_000011_001115_005657_009209_006117,
  1_000440_000001_000003_000007_000015_000029_000017_000033_000123_000317_000301_000749_001365_005619_000605_001613,
  1_000453_000001_000003_000001_000015_000007_000053_000125_000249_000219_000655_000105_002825_001649_012783_019777,
  1_000460_000001_000001_000007_000001_000025_000053_000019_000053_000157_000373_001855_000495_005065_009465_002313,
  1_000471_000001_000003_000005_000013_000003_000057_000057_000161_000431_000415_001859_001033_006349_001577_031579,
  1_000478_000001_000001_000007_000005_000023_000063_000029_000221_000013_000965_001997_002265_001583_010491_009551,
  1_000482_000001_000001_000003_000013_000031_000025_000023_000061_000285_000005_002005_000879_000795_013299_019685,
  1_000488_000001_000001_000007_000001_000021_000045_000121_000089_000263_000543_001333_002711_000219_010823_026139,
  1_000524_000001_000001_000003_000003_000027_000013_000019_000117_000161_000457_001541_000295_004953_012125_014503,
  1_000529_000001_000003_000005_000003_000007_000063_000013_000247_000439_000681_000977_002537_006923_010323_007349,
  1_000535_000001_000003_000005_000009_000003_000051_000081_000251_000349_000983_000581_002515_002281_002849_031915,
  1_000536_000001_000003_000005_000003_000011_000063_000047_000137_000303_000627_000091_002269_007097_002145_031059,
  1_000539_000001_000001_000003_000015_000013_000017_000053_000027_000133_000013_000117_001837_004103_005843_029153,
  1_000563_000001_000001_000005_000013_000021_000033_000037_000253_000465_000209_000309_000049_003209_015677_014569,
  1_000566_000001_000001_000007_000015_000013_000021_000033_000203_000499_000141_001155_003893_001663_002115_027459,
  1_000572_000001_000003_000005_000011_000021_000009_000039_000157_000257_000273_001257_001831_000515_007969_020133,
  1_000577_000001_000001_000003_000013_000019_000029_000015_000189_000103_000219_001395_000517_007425_006585_015865,
  1_000587_000001_000001_000005_000011_000021_000031_000049_000151_000039_000537_001783_003449_006915_000223_011587,
  1_000592_000001_000003_000003_000011_000007_000063_000069_000031_000027_000911_001903_002821_007977_012949_032257,
  1_000602_000001_000001_000007_000009_000025_000045_000023_000233_000511_000595_001383_001721_006789_012055_021179,
  1_000623_000001_000001_000007_000013_000001_000027_000123_000049_000439_000683_000501_000641_001947_006111_025423,
  1_000635_000001_000003_000003_000005_000001_000023_000057_000241_000243_000593_002039_001617_002209_005171_009675,
  1_000638_000001_000001_000001_000007_000005_000019_000083_000055_000481_000125_000177_001021_001139_011403_023099,
  1_000654_000001_000001_000003_000005_000029_000039_000033_000217_000461_000907_000733_003795_004811_012939_027715,
  1_000656_000001_000003_000007_000003_000007_000011_000039_000165_000495_000147_000999_001827_000817_000603_009293,
  1_000659_000001_000003_000007_000015_000025_000053_000035_000015_000431_000733_001213_002907_008087_003939_027363,
  1_000665_000001_000003_000007_000013_000013_000009_000033_000027_000485_000183_000455_003341_002555_004985_008793,
  1_000675_000001_000001_000001_000015_000025_000047_000075_000021_000205_000015_001639_003067_001295_011693_016903,
  1_000677_000001_000001_000001_000015_000003_000031_000093_000057_000043_000185_000251_001899_007885_010829_003609,
  1_000687_000001_000001_000003_000001_000029_000009_000069_000223_000221_000537_000365_003411_005771_015279_005309,
  1_000696_000001_000001_000007_000005_000001_000005_000125_000243_000213_001003_001571_003355_003981_008781_025993,
  1_000701_000001_000001_000001_000013_000007_000019_000053_000243_000301_000075_001183_002723_006687_000013_016581,
  1_000704_000001_000003_000001_000013_000017_000051_000091_000239_000437_000191_001065_002495_005755_003405_008299,
  1_000710_000001_000001_000005_000005_000011_000059_000021_000169_000299_000123_001845_002199_002157_014461_010327,
  1_000721_000001_000003_000007_000007_000019_000047_000051_000179_000041_000019_001347_002325_008063_005993_015653,
  1_000728_000001_000001_000001_000009_000025_000027_000007_000133_000223_000533_000719_000353_007093_008285_010375,
  1_000738_000001_000003_000005_000015_000031_000005_000067_000039_000441_000495_000977_003699_001435_011385_014567,
  1_000740_000001_000001_000003_000015_000015_000039_000025_000033_000091_000523_000249_004035_000769_005181_009691,
  1_000749_000001_000001_000003_000003_000003_000057_000083_000187_000423_000165_000161_003453_002241_000981_008429,
  1_000758_000001_000001_000007_000015_000001_000017_000057_000189_000283_000011_000823_003505_007025_011879_015441,
  1_000761_000001_000001_000003_000011_000001_000041_000007_000255_000385_000339_000607_001405_001473_013697_009491,
  1_000772_000001_000001_000007_000015_000005_000009_000091_000099_000211_000233_000051_002663_001165_009283_018495,
  1_000776_000001_000001_000003_000007_000021_000037_000013_000091_000039_000027_001021_002813_005937_006645_003403,
  1_000782_000001_000003_000001_000001_000029_000029_000005_000069_000399_000665_001407_003921_002653_011753_018925,
  1_000789_000001_000003_000007_000015_000013_000041_000039_000001_000437_000549_000161_002315_005631_008335_022661,
  1_000810_000001_000001_000003_000001_000007_000017_000115_000061_000069_000955_000475_003763_008035_000927_017893,
  1_000812_000001_000003_000001_000013_000021_000059_000081_000145_000463_000145_001941_002777_007453_014229_011281,
  1_000818_000001_000001_000001_000015_000015_000011_000027_000165_000461_000395_001645_003611_007463_012379_026787,
  1_000830_000001_000001_000007_000009_000029_000019_000027_000123_000021_000149_001643_004001_007207_006769_004647,
  1_000832_000001_000001_000001_000011_000013_000009_000103_000139_000185_000587_000591_001113_002223_011667_032671,
  1_000852_000001_000003_000001_000001_000031_000013_000019_000093_000229_000125_001471_002369_003055_010277_028563,
  1_000855_000001_000003_000007_000005_000007_000053_000099_000175_000161_000851_000617_004027_002357_011199_001931]

def dirRows15_0_1 : List Nat := [
  1_000859_000001_000003_000005_000011_000003_000031_000111_000179_000237_000845_000539_001057_000259_003417_026637,
  1_000865_000001_000001_000005_000003_000021_000049_000125_000119_000463_000403_000737_001811_003941_013015_029081,
  1_000877_000001_000003_000005_000013_000005_000029_000069_000251_000313_000357_000663_001097_003307_012845_028495,
  1_000895_000001_000003_000003_000005_000029_000017_000089_000015_000411_000409_002013_000757_004085_012521_011131,
  1_000901_000001_000001_000001_000015_000007_000051_000003_000193_000493_000133_000381_002027_000227_006635_012931,
  1_000902_000001_000001_000001_000015_000007_000023_000099_000203_000323_001007_001465_002887_002215_001787_022069,
  1_000906_000001_000001_000005_000009_000029_000059_000077_000151_000509_000313_000415_003977_005431_008019_008571,
  1_000916_000001_000003_000001_000015_000019_000013_000057_000217_000087_000119_000025_001149_005667_003765_006959,
  1_000920_000001_000003_000007_000013_000019_000031_000119_000003_000457_000117_000905_000361_001483_012405_027005,
  1_000949_000001_000003_000005_000011_000015_000035_000061_000077_000119_000051_001753_002765_001091_010573_023595,
  1_000962_000001_000003_000003_000007_000001_000035_000017_000093_000197_000511_001253_003031_002739_015127_015147,
  1_000964_000001_000003_000003_000001_000011_000055_000055_000107_000161_000075_000129_002195_002023_004877_025797,
  1_000967_000001_000003_000005_000007_000023_000019_000113_000167_000167_000271_001303_000125_005057_001323_005165,
  1_000981_000001_000001_000005_000003_000021_000031_000011_000119_000215_000483_001535_000407_006485_015401_030297,
  1_000982_000001_000003_000005_000009_000021_000005_000077_000095_000443_000247_000913_000605_000365_007465_019707,
  1_000985_000001_000003_000001_000007_000017_000059_000009_000035_000391_000767_001493_000475_004725_007529_031579,
  1_000991_000001_000003_000003_000007_000031_000021_000061_000031_000421_000179_000273_000771_005745_010575_032765,
  1_001007_000001_000003_000005_000015_000027_000013_000125_000055_000423_001021_000497_003521_006903_015111_008285,
  1_001016_000001_000001_000005_000009_000013_000031_000105_000093_000421_000709_000643_001079_001533_009149_010799,
  1_001024_000001_000003_000001_000011_000019_000029_000053_000199_000319_000247_000655_003039_006411_012267_014245,
  1_001051_000001_000003_000001_000011_000009_000057_000005_000091_000469_000149_000259_000329_005433_006941_015093,
  1_001060_000001_000003_000001_000005_000005_000051_000059_000025_000455_000367_001623_000441_003155_011695_020767,
  1_001070_000001_000003_000007_000007_000011_000049_000113_000095_000091_000389_000605_001973_002051_002315_022229,
  1_001072_000001_000003_000005_000003_000019_000011_000099_000135_000433_000781_001473_000885_001105_003573_003739,
  1_001084_000001_000003_000001_000011_000003_000025_000009_000227_000433_000723_000317_000139_006627_008067_028439,
  1_001089_000001_000001_000001_000009_000009_000009_000005_000063_000241_000215_001991_002949_003943_000775_031511,
  1_001095_000001_000001_000003_000007_000017_000049_000035_000167_000131_000107_001295_002465_004577_011147_029833,
  1_001114_000001_000001_000005_000001_000005_000025_000119_000129_000391_000743_001069_002957_000349_006891_013635,
  1_001123_000001_000003_000001_000007_000009_000031_000063_000253_000215_000051_001347_002361_003125_013049_028461,
  1_001132_000001_000001_000007_000009_000003_000031_000021_000163_000255_000047_000259_000535_005461_003349_030649,
  1_001154_000001_000003_000003_000013_000017_000033_000087_000047_000243_000709_000929_003943_003107_003421_013721,
  1_001156_000001_000003_000005_000011_000025_000061_000061_000173_000397_000735_002005_003355_008121_011593_027697,
  1_001163_000001_000003_000005_000015_000017_000043_000063_000231_000275_000311_001277_002669_007307_002099_009755,
  1_001171_000001_000003_000005_000003_000025_000043_000071_000191_000009_000121_001873_003747_007491_014055_024293,
  1_001202_000001_000003_000005_000013_000017_000035_000113_000113_000385_000941_000039_002705_001225_005167_001373,
  1_001228_000001_000003_000005_000005_000007_000035_000019_000105_000487_000071_000139_000627_004187_003183_000713,
  1_001239_000001_000001_000005_000013_000029_000029_000103_000005_000157_000869_001675_000423_006689_010697_005303,
  1_001255_000001_000001_000005_000001_000029_000031_000061_000111_000473_000963_000685_001483_002383_008109_008495,
  1_001256_000001_000001_000005_000003_000019_000013_000095_000113_000217_000059_001353_001647_003617_003271_002321,
  1_001262_000001_000003_000005_000007_000025_000035_000059_000131_000309_000445_000415_000093_001453_008789_030201,
  1_001270_000001_000001_000005_000001_000005_000043_000071_000241_000123_000189_000831_003469_008093_006187_032721,
  1_001279_000001_000003_000007_000005_000025_000031_000123_000171_000319_000379_000889_002365_004881_012225_016609,
  1_001308_000001_000003_000001_000011_000027_000043_000121_000063_000291_000591_000811_001995_004777_002083_031385,
  1_001322_000001_000001_000005_000011_000027_000053_000085_000187_000461_000823_000703_000399_006925_011517_028697,
  1_001329_000001_000001_000003_000005_000013_000011_000033_000121_000093_000717_001275_003877_004247_005845_026909,
  1_001330_000001_000003_000001_000009_000007_000005_000047_000199_000367_000561_000185_002855_005997_002699_007581,
  1_001336_000001_000001_000005_000009_000023_000011_000071_000201_000061_000729_001011_003529_000663_001413_025675,
  1_001341_000001_000003_000007_000013_000027_000021_000011_000127_000281_000487_001217_003129_005541_003129_017783,
  1_001347_000001_000001_000005_000009_000001_000029_000085_000193_000213_000743_001473_000611_000391_009405_021137,
  1_001349_000001_000003_000003_000003_000031_000063_000037_000147_000039_000351_000079_003069_002441_008901_008777,
  1_001359_000001_000001_000007_000007_000025_000049_000055_000047_000441_000343_001267_001123_005917_014395_010579,
  1_001367_000001_000001_000007_000001_000013_000055_000055_000123_000103_000773_000125_002145_004743_013347_002589,
  1_001368_000001_000003_000007_000003_000009_000033_000025_000183_000469_000213_000291_000075_006725_006847_026745,
  1_001390_000001_000003_000003_000007_000015_000043_000007_000079_000171_000021_001767_002537_004285_012007_024039,
  1_001413_000001_000003_000007_000013_000009_000061_000125_000023_000227_000879_000215_001635_002835_000883_015939,
  1_001414_000001_000001_000005_000013_000025_000045_000063_000043_000183_000829_000149_000989_000987_003819_012181,
  1_001437_000001_000001_000003_000007_000019_000027_000035_000083_000135_000459_000785_000131_002655_003329_003009,
  1_001441_000001_000001_000007_000005_000011_000041_000009_000219_000475_000985_001329_003787_001975_004679_008627,
  1_001462_000001_000001_000007_000003_000001_000017_000091_000155_000003_000763_001879_000233_000215_002955_025993,
  1_001465_000001_000001_000001_000011_000025_000011_000023_000227_000453_000775_001935_003833_004583_000269_000705,
  1_001480_000001_000003_000003_000011_000007_000025_000105_000021_000449_000555_001275_003475_005503_015617_000813,
  1_001486_000001_000003_000007_000013_000031_000037_000025_000255_000233_000663_001155_001563_004775_007449_029949,
  1_001504_000001_000001_000003_000001_000023_000051_000051_000137_000063_000809_000349_002789_006953_010605_018959,
  1_001509_000001_000003_000003_000013_000021_000045_000015_000161_000393_000229_000437_002967_004019_003893_021305,
  1_001514_000001_000001_000003_000007_000005_000011_000015_000211_000287_000131_001847_002569_007881_015669_031037,
  1_001522_000001_000003_000003_000015_000027_000019_000085_000251_000221_000639_000665_003729_005771_007873_028005,
  1_001528_000001_000003_000007_000015_000015_000047_000093_000215_000343_000085_001401_001375_002949_013661_025453,
  1_001552_000001_000001_000001_000009_000007_000051_000053_000217_000471_000389_000551_001141_001767_002237_017797,
  1_001555_000001_000001_000007_000009_000003_000029_000065_000029_000223_000591_001719_001049_007643_003853_029867,
  1_001571_000001_000001_000001_000011_000013_000041_000085_000029_000451_000387_001783_003733_008033_004711_031643,
  1_001578_000001_000003_000001_000011_000011_000057_000075_000153_000007_000373_002011_000271_000469_003267_018969,
  1_001585_000001_000001_000005_000003_000019_000043_000007_000243_000385_000293_000923_000843_004895_000469_008421,
  1_001588_000001_000003_000001_000015_000029_000047_000017_000125_000471_000927_000349_003859_003059_011483_014791,
  1_001603_000001_000003_000001_000011_000017_000017_000111_000109_000009_000213_001313_003903_004411_004329_028277,
  1_001609_000001_000003_000003_000015_000001_000055_000047_000069_000143_000789_001149_003833_005053_006949_010569,
  1_001617_000001_000003_000005_000007_000011_000015_000079_000083_000123_000937_001115_002775_003041_011869_021167,
  1_001620_000001_000003_000007_000013_000009_000047_000045_000221_000139_000923_001661_001379_002485_007233_006035,
  1_001629_000001_000001_000003_000003_000011_000055_000077_000003_000087_000693_001991_001145_002783_016207_024569,
  1_001636_000001_000001_000005_000011_000003_000035_000091_000009_000391_000927_000101_001839_003755_010345_016907,
  1_001648_000001_000003_000005_000003_000005_000049_000079_000091_000205_000443_001369_000197_002537_011219_017765,
  1_001667_000001_000001_000003_000015_000009_000007_000025_000025_000357_000247_000477_000421_007679_005987_030079,
  1_001669_000001_000001_000005_000003_000029_000005_000089_000117_000481_000491_000371_000389_007101_002253_023617,
  1_001682_000001_000001_000005_000013_000029_000059_000017_000181_000511_000291_001991_003499_008177_005559_030045,
  1_001697_000001_000003_000003_000011_000023_000031_000117_000217_000241_000115_000749_000945_001897_012253_008473,
  1_001704_000001_000001_000007_000015_000025_000047_000031_000001_000165_000311_000635_003629_001593_008305_030033,
  1_001709_000001_000003_000005_000009_000003_000017_000101_000237_000379_000503_000049_000929_001687_003865_026723,
  1_001727_000001_000003_000005_000005_000015_000041_000001_000239_000053_000215_001733_000827_000579_004089_006579,
  1_001730_000001_000003_000001_000015_000015_000021_000035_000021_000403_000257_001475_002403_004705_011553_000203,
  1_001732_000001_000003_000005_000011_000009_000053_000113_000009_000447_000511_000543_003141_007389_011249_000431,
  1_001741_000001_000003_000005_000009_000009_000011_000055_000093_000325_000411_000305_002573_006871_012339_006435,
  1_001744_000001_000003_000003_000007_000031_000027_000021_000113_000099_000853_000365_000589_003731_010875_012767,
  1_001759_000001_000003_000001_000007_000015_000027_000031_000017_000275_000093_001161_002619_001329_007307_000587,
  1_001765_000001_000003_000005_000009_000017_000047_000049_000237_000027_000193_001237_000591_005151_005521_031583,
  1_001766_000001_000003_000005_000003_000013_000001_000027_000087_000043_000977_000305_003293_002475_014571_018321,
  1_001778_000001_000001_000005_000007_000015_000013_000101_000001_000291_000807_001711_002277_005573_011051_013133,
  1_001780_000001_000003_000003_000001_000009_000003_000065_000081_000415_000733_001527_002747_006069_000159_007095,
  1_001783_000001_000003_000003_000015_000027_000001_000071_000049_000231_000851_002039_000613_001899_002537_014511,
  1_001797_000001_000001_000001_000011_000003_000041_000055_000023_000247_001011_000581_002363_002745_001337_020931,
  1_001807_000001_000001_000003_000011_000017_000061_000067_000255_000143_000357_000945_003407_005817_004155_023851,
  1_001821_000001_000003_000005_000003_000023_000001_000075_000247_000265_000413_001899_002565_006629_015655_016117]

def dirRows15_0_2 : List Nat := [
  1_001832_000001_000001_000001_000009_000011_000049_000011_000189_000223_000177_001457_001931_000163_015905_017297,
  1_001835_000001_000003_000007_000013_000017_000001_000111_000189_000343_000961_000427_002507_002393_008653_006353,
  1_001849_000001_000003_000007_000013_000023_000061_000059_000051_000313_000963_000791_003681_005637_003965_009263,
  1_001850_000001_000003_000007_000007_000021_000053_000127_000141_000499_000859_000337_002835_003195_004351_032369,
  1_001863_000001_000001_000007_000005_000001_000005_000053_000063_000497_000535_000035_000305_004395_009757_013193,
  1_001867_000001_000001_000005_000013_000013_000031_000059_000229_000211_000745_001453_003677_003005_007703_023907,
  1_001869_000001_000003_000005_000005_000007_000063_000017_000197_000493_000861_000499_003015_006349_001815_007437,
  1_001872_000001_000001_000001_000013_000013_000037_000029_000189_000253_001017_000321_003145_000407_007547_017099,
  1_001887_000001_000003_000003_000003_000023_000053_000069_000077_000175_000017_001831_000841_003851_001295_032107,
  1_001888_000001_000003_000007_000013_000013_000039_000107_000237_000389_000729_000635_003717_003041_003169_014987,
  1_001897_000001_000001_000003_000001_000025_000007_000069_000035_000495_000049_000659_002783_006051_013875_023927,
  1_001906_000001_000003_000007_000005_000005_000025_000049_000007_000193_000493_000093_000657_001515_013975_014155,
  1_001917_000001_000003_000001_000001_000011_000015_000113_000045_000021_000595_000731_003397_004117_009711_016625,
  1_001927_000001_000003_000003_000009_000019_000019_000059_000007_000105_000579_000599_002859_000097_014717_015361,
  1_001939_000001_000001_000001_000005_000027_000049_000113_000005_000367_000563_001397_002805_003021_003111_020671,
  1_001941_000001_000003_000003_000015_000027_000051_000099_000167_000109_000365_001959_001523_006959_014405_018191,
  1_001948_000001_000003_000001_000005_000021_000051_000125_000067_000123_000045_001657_000051_004825_014081_031049,
  1_001970_000001_000001_000005_000007_000021_000059_000021_000249_000077_000793_001687_002561_002241_004321_007477,
  1_001979_000001_000001_000001_000007_000015_000035_000071_000029_000267_000611_001813_001823_007039_003299_009919,
  1_001982_000001_000003_000007_000011_000021_000059_000109_000213_000371_000785_000659_001687_004827_006017_019619,
  1_002002_000001_000001_000003_000011_000027_000017_000001_000055_000367_000939_000333_000127_005105_002405_028139,
  1_002020_000001_000001_000007_000013_000005_000035_000059_000133_000509_000573_000625_003857_007935_005279_003727,
  1_002024_000001_000001_000001_000007_000011_000047_000127_000157_000019_000403_000151_001143_007407_008985_032521,
  1_002032_000001_000003_000001_000001_000005_000013_000105_000123_000063_000139_001569_001983_000563_007175_027705,
  1_002053_000001_000001_000003_000013_000009_000035_000105_000227_000145_000021_001369_000057_000393_002921_018511,
  1_002060_000001_000003_000001_000007_000017_000061_000099_000187_000261_000281_000437_002219_005999_001857_018001,
  1_002063_000001_000003_000003_000005_000001_000059_000067_000045_000451_000439_002005_003607_000003_007167_014227,
  1_002066_000001_000003_000003_000003_000029_000019_000025_000251_000275_000733_001749_004021_000871_003227_013701,
  1_002075_000001_000003_000003_000013_000027_000053_000057_000243_000491_000521_001921_001037_005013_005703_015261,
  1_002078_000001_000003_000001_000011_000013_000057_000001_000015_000123_000533_000785_000335_001423_014269_003483,
  1_002081_000001_000003_000007_000013_000015_000055_000005_000139_000385_000047_001981_001291_007397_012925_029445,
  1_002091_000001_000001_000007_000001_000023_000023_000059_000093_000117_000057_000063_003047_004849_011637_025311,
  1_002096_000001_000001_000007_000013_000019_000037_000025_000203_000477_000447_001345_003485_002099_013347_011621,
  1_002102_000001_000001_000007_000003_000011_000023_000081_000017_000041_000735_001149_003253_007665_008291_022293,
  1_002106_000001_000001_000005_000003_000015_000009_000057_000167_000463_000493_000747_001947_006471_001111_031619,
  1_002116_000001_000001_000005_000015_000007_000015_000107_000205_000325_000167_001749_000927_003589_006127_007617,
  1_002120_000001_000001_000001_000013_000021_000025_000083_000147_000411_000399_001423_002279_003661_007591_017429,
  1_002125_000001_000001_000001_000009_000005_000017_000069_000205_000243_000647_000473_001717_001977_010725_002913,
  1_002134_000001_000001_000003_000005_000005_000037_000103_000015_000485_000641_001761_003755_006997_010985_011773,
  1_002178_000001_000001_000005_000013_000009_000051_000087_000195_000097_000807_001801_000961_006341_004307_029105,
  1_002180_000001_000003_000001_000013_000009_000035_000083_000061_000387_000817_000951_003993_007831_008479_023941,
  1_002187_000001_000001_000007_000011_000019_000047_000075_000037_000091_000337_000953_001169_000163_002259_024713,
  1_002189_000001_000001_000001_000011_000013_000015_000083_000171_000159_000087_000619_002973_002653_013725_012499,
  1_002190_000001_000003_000005_000003_000005_000063_000119_000025_000343_000269_000553_002183_000959_003825_022189,
  1_002208_000001_000001_000005_000015_000005_000037_000089_000109_000497_001013_000265_000669_001859_002647_003445,
  1_002214_000001_000003_000003_000009_000021_000021_000015_000245_000107_000649_000367_001601_007279_015783_004943,
  1_002237_000001_000003_000003_000015_000005_000041_000125_000113_000159_000161_001191_003491_003531_000055_020857,
  1_002252_000001_000003_000005_000009_000021_000057_000021_000195_000099_000193_001915_002923_006349_015085_024929,
  1_002257_000001_000001_000001_000011_000031_000011_000073_000141_000361_000621_001021_002067_005115_012665_026845,
  1_002260_000001_000001_000001_000003_000029_000011_000043_000061_000209_000923_001753_001937_000843_000205_008367,
  1_002264_000001_000001_000001_000005_000015_000033_000119_000209_000215_000973_001775_000815_006693_007957_014517,
  1_002270_000001_000001_000001_000005_000017_000057_000027_000147_000489_000059_001439_002279_000445_011791_019739,
  1_002279_000001_000003_000001_000007_000011_000055_000001_000083_000305_000017_001909_000405_002325_005293_028559,
  1_002288_000001_000003_000003_000007_000011_000027_000103_000157_000455_001005_002033_003145_001919_015723_025197,
  1_002305_000001_000001_000005_000011_000015_000051_000037_000131_000503_001007_001795_002421_001335_007413_021741,
  1_002312_000001_000001_000003_000001_000023_000063_000069_000083_000419_000283_000583_000123_007725_002243_008403,
  1_002317_000001_000001_000005_000005_000027_000045_000109_000017_000299_000065_000351_000947_001165_010723_002053,
  1_002323_000001_000001_000003_000003_000023_000061_000115_000253_000001_000931_001481_003187_000441_014735_027207,
  1_002329_000001_000001_000005_000003_000025_000011_000083_000141_000359_000343_000901_001629_000731_012841_014357,
  1_002335_000001_000001_000003_000009_000007_000045_000097_000003_000299_000217_000663_001527_006379_004527_026147,
  1_002342_000001_000001_000007_000009_000011_000053_000009_000203_000337_000713_001517_000719_004587_011443_026905,
  1_002345_000001_000001_000007_000009_000011_000041_000125_000213_000237_000377_000361_003231_004223_003263_012655,
  1_002365_000001_000003_000007_000007_000007_000033_000099_000019_000117_000273_000985_000107_003831_010135_019423,
  1_002371_000001_000001_000005_000015_000025_000041_000013_000125_000449_000169_001149_004021_005663_003077_019163,
  1_002378_000001_000003_000005_000009_000025_000057_000047_000103_000269_000051_001805_002503_006687_008065_012045,
  1_002385_000001_000003_000005_000007_000003_000035_000087_000225_000189_000229_000931_003293_001347_001427_003269,
  1_002395_000001_000001_000001_000003_000005_000031_000061_000019_000247_000009_001667_000343_000559_002703_003763,
  1_002404_000001_000003_000005_000015_000031_000019_000057_000187_000109_000121_001287_002269_000659_016235_001273,
  1_002414_000001_000001_000001_000003_000005_000047_000059_000243_000255_000097_001959_001723_001347_003019_026989,
  1_002426_000001_000003_000003_000015_000029_000035_000075_000067_000497_000731_000193_003307_003579_012005_007209,
  1_002428_000001_000001_000005_000009_000013_000035_000079_000213_000051_000983_001927_001793_005037_005463_000965,
  1_002441_000001_000001_000007_000011_000005_000041_000007_000083_000015_000411_001775_003515_006755_003249_016425,
  1_002456_000001_000003_000005_000001_000019_000061_000003_000019_000395_000819_001331_000179_005225_005333_003601,
  1_002466_000001_000001_000003_000009_000007_000005_000087_000015_000387_000609_001465_000277_000987_008377_000903,
  1_002468_000001_000001_000001_000003_000015_000011_000123_000107_000355_000333_000285_001801_006989_001549_025791,
  1_002475_000001_000001_000007_000013_000027_000013_000073_000111_000481_000227_001091_000365_005713_005087_027217,
  1_002489_000001_000003_000003_000015_000001_000055_000095_000213_000377_000405_000139_001867_002175_004217_028813,
  1_002495_000001_000003_000005_000011_000021_000043_000109_000155_000181_000901_001951_000507_004389_010815_003141,
  1_002497_000001_000001_000001_000015_000017_000011_000043_000215_000501_000019_000259_003479_006381_006927_031247,
  1_002510_000001_000003_000005_000015_000019_000061_000075_000041_000391_000095_000865_001441_007993_013979_024663,
  1_002512_000001_000003_000001_000003_000021_000015_000115_000213_000001_000645_000777_001517_002543_011223_003633,
  1_002522_000001_000003_000005_000003_000009_000057_000039_000211_000407_000065_001795_002805_002799_008691_001987,
  1_002533_000001_000001_000003_000013_000017_000055_000047_000113_000029_000139_001301_003303_001129_013947_029821,
  1_002543_000001_000001_000003_000013_000005_000035_000097_000151_000477_000409_001397_003399_004421_015929_006163,
  1_002551_000001_000003_000001_000009_000021_000051_000099_000133_000149_000763_000623_000173_004311_011081_001095,
  1_002552_000001_000003_000007_000015_000013_000003_000099_000003_000195_000907_001335_001355_007977_005773_032383,
  1_002557_000001_000001_000003_000009_000017_000043_000043_000217_000475_000917_001373_001677_004871_009619_016657,
  1_002567_000001_000003_000003_000007_000031_000031_000055_000011_000073_000693_000025_000417_001195_006225_032279,
  1_002581_000001_000003_000005_000009_000021_000057_000127_000149_000079_000379_001609_002543_006473_016033_027191,
  1_002586_000001_000001_000005_000001_000013_000009_000081_000153_000297_000789_001749_002819_003961_011231_024927,
  1_002597_000001_000003_000005_000003_000023_000061_000045_000043_000043_000133_001481_001543_002991_013739_010287,
  1_002601_000001_000001_000003_000009_000025_000043_000031_000177_000337_000193_001083_000001_000991_009725_008379,
  1_002622_000001_000003_000005_000011_000013_000033_000065_000083_000421_000149_000409_002443_007423_008847_029599,
  1_002633_000001_000001_000005_000011_000011_000001_000023_000225_000077_000585_001505_002525_000739_010915_025733,
  1_002636_000001_000003_000007_000013_000007_000055_000003_000223_000415_000521_001865_002349_005663_007455_016569,
  1_002642_000001_000001_000007_000013_000001_000045_000121_000049_000463_000099_001061_002559_005087_013389_011035,
  1_002644_000001_000003_000007_000011_000031_000051_000035_000235_000385_001023_001771_002013_005437_004877_022119,
  1_002653_000001_000003_000003_000011_000021_000003_000011_000119_000081_000737_001093_002377_004055_001121_015767,
  1_002667_000001_000001_000005_000013_000009_000003_000083_000217_000387_000249_001047_001861_004103_015367_024545,
  1_002669_000001_000003_000003_000001_000005_000037_000043_000183_000383_000463_000937_001165_001481_000959_017047]

def dirRows15_0_3 : List Nat := [
  1_002672_000001_000001_000003_000005_000007_000043_000127_000243_000081_001021_000165_000753_004711_012965_022049,
  1_002675_000001_000001_000005_000005_000003_000061_000065_000053_000425_000089_000005_001467_001395_009579_008961,
  1_002682_000001_000003_000007_000013_000011_000035_000123_000021_000083_000689_000667_001203_005959_015697_026885,
  1_002687_000001_000001_000005_000013_000009_000049_000041_000101_000291_000339_001067_000657_004453_001137_021131,
  1_002691_000001_000003_000003_000003_000017_000061_000011_000213_000027_000805_001691_001057_006011_011941_018883,
  1_002698_000001_000003_000001_000007_000003_000051_000005_000063_000121_000003_000245_002631_003737_016121_026803,
  1_002708_000001_000003_000001_000001_000023_000051_000079_000019_000161_000107_000609_003489_003389_004035_002427,
  1_002712_000001_000003_000001_000001_000017_000011_000101_000101_000373_000063_001641_000285_001333_000165_014025,
  1_002718_000001_000001_000001_000005_000001_000051_000083_000137_000045_001019_000821_000867_006055_010443_009857,
  1_002722_000001_000003_000001_000005_000017_000023_000025_000181_000429_000495_000317_003219_005963_013945_009969,
  1_002736_000001_000003_000007_000003_000003_000015_000123_000191_000369_000177_001697_002113_003889_005201_021839,
  1_002741_000001_000003_000001_000011_000021_000039_000051_000139_000271_000605_001007_003513_003365_003781_006799,
  1_002756_000001_000001_000007_000005_000013_000019_000047_000165_000249_000405_000255_001295_004513_014395_005587,
  1_002765_000001_000001_000003_000007_000005_000017_000099_000001_000393_000031_000621_000797_006113_016003_032043,
  1_002774_000001_000003_000005_000013_000011_000021_000065_000081_000147_000443_000775_003671_007029_011749_003339,
  1_002799_000001_000003_000007_000001_000023_000033_000099_000177_000161_000577_001729_000617_003465_011787_017577,
  1_002804_000001_000001_000005_000007_000015_000015_000053_000193_000097_000255_001223_000545_005153_000873_024525,
  1_002825_000001_000003_000005_000001_000007_000057_000047_000121_000383_000835_001709_002363_004731_012163_007001,
  1_002826_000001_000003_000003_000011_000019_000033_000063_000099_000387_000095_000783_001009_006373_004021_007685,
  1_002840_000001_000001_000001_000015_000025_000033_000073_000135_000335_000785_000935_001927_005847_010501_007719,
  1_002843_000001_000001_000005_000003_000027_000045_000071_000215_000489_000157_001189_002577_006901_010219_003025,
  1_002846_000001_000001_000007_000007_000021_000003_000097_000225_000101_000159_000293_002789_007955_014829_001209,
  1_002849_000001_000003_000001_000005_000023_000041_000083_000063_000361_000195_001707_002081_005363_006327_000179,
  1_002867_000001_000001_000003_000001_000021_000051_000059_000067_000175_000363_000825_002971_003321_008837_011805,
  1_002876_000001_000003_000007_000001_000019_000003_000015_000021_000429_000675_001589_002615_002575_001537_007139,
  1_002891_000001_000003_000003_000005_000021_000029_000017_000115_000345_000397_000523_001699_007043_011173_003023,
  1_002902_000001_000001_000005_000007_000019_000063_000099_000175_000091_000433_000153_003749_000517_013667_007423,
  1_002912_000001_000003_000007_000003_000025_000023_000053_000149_000065_000551_001231_000365_006637_015137_016319,
  1_002917_000001_000003_000007_000013_000005_000045_000011_000151_000323_000031_001749_000409_006753_010503_014991,
  1_002927_000001_000003_000007_000003_000005_000021_000029_000117_000321_000341_001811_003619_004337_012255_008629,
  1_002941_000001_000003_000007_000003_000007_000003_000005_000221_000407_000671_001763_003669_002353_008175_023489,
  1_002965_000001_000001_000003_000007_000011_000055_000053_000185_000247_000035_001823_000513_001379_011827_020069,
  1_002970_000001_000003_000003_000005_000029_000051_000073_000191_000185_000961_000881_002019_005651_001019_015587,
  1_002982_000001_000003_000007_000013_000007_000055_000059_000005_000417_000829_000453_002339_000587_013283_000797,
  1_002993_000001_000003_000007_000003_000011_000041_000075_000085_000065_000149_001583_000529_002707_011479_007109,
  1_003018_000001_000003_000007_000009_000013_000057_000037_000243_000091_000613_000665_000171_001631_013737_002377,
  1_003023_000001_000001_000003_000007_000005_000043_000097_000053_000477_000793_000999_003647_002555_007371_019295,
  1_003025_000001_000001_000007_000001_000001_000009_000099_000253_000317_000817_001559_002081_002529_014611_015997,
  1_003026_000001_000003_000003_000001_000005_000041_000057_000121_000387_000441_000709_001511_007045_008409_013297,
  1_003028_000001_000001_000001_000013_000029_000057_000063_000183_000327_000473_001943_000213_003973_016289_002739,
  1_003032_000001_000003_000007_000009_000025_000015_000075_000185_000335_000881_001041_003339_004471_006823_021121,
  1_003053_000001_000003_000003_000013_000023_000003_000057_000117_000511_000927_000771_003229_000949_015487_011963,
  1_003054_000001_000001_000003_000007_000027_000019_000055_000207_000331_000705_001945_000797_007125_010493_016585,
  1_003065_000001_000003_000001_000001_000029_000007_000091_000093_000459_000093_001501_001927_006415_016255_009823,
  1_003071_000001_000001_000005_000005_000031_000011_000097_000179_000505_000807_000877_004003_004377_008851_004239,
  1_003076_000001_000001_000003_000005_000011_000025_000017_000131_000023_000095_000311_001429_002029_013091_023739,
  1_003088_000001_000001_000003_000011_000013_000027_000033_000127_000481_000117_001127_001619_006493_008507_006615,
  1_003107_000001_000003_000001_000013_000019_000027_000089_000101_000027_000235_001579_001701_004421_016037_016239,
  1_003146_000001_000003_000001_000015_000001_000015_000003_000117_000317_000475_001691_002423_005519_001703_002969,
  1_003148_000001_000001_000003_000001_000013_000015_000019_000037_000237_000467_001321_000453_002169_013313_031499,
  1_003159_000001_000001_000003_000015_000029_000055_000031_000199_000085_000285_000967_000367_003941_000151_020587,
  1_003165_000001_000003_000007_000015_000007_000013_000031_000035_000117_000543_001179_003441_003039_011225_030229,
  1_003170_000001_000001_000003_000015_000003_000043_000001_000063_000353_000395_001775_003493_005175_013193_025343,
  1_003179_000001_000003_000003_000015_000017_000025_000057_000205_000411_000083_001877_002093_005599_012115_008751,
  1_003182_000001_000001_000001_000011_000015_000009_000115_000099_000085_000887_000987_004015_007077_003739_021505,
  1_003205_000001_000003_000001_000011_000025_000039_000127_000037_000329_000273_001531_003211_007115_015501_026575,
  1_003212_000001_000001_000005_000013_000015_000003_000003_000101_000431_000645_000493_000723_008083_001423_014879,
  1_003218_000001_000003_000003_000005_000031_000035_000037_000131_000259_000849_000325_003403_003627_003295_030885,
  1_003220_000001_000003_000007_000001_000009_000003_000031_000201_000379_000907_001005_003333_007457_002533_030357,
  1_003223_000001_000003_000001_000009_000007_000007_000095_000103_000121_000157_000895_002683_005839_012403_014327,
  1_003227_000001_000003_000007_000003_000013_000005_000055_000233_000003_000855_000859_001115_003883_008041_003353,
  1_003233_000001_000001_000005_000009_000003_000055_000099_000079_000263_000831_001579_000205_005673_001999_014879,
  1_003234_000001_000003_000001_000005_000017_000025_000085_000019_000189_000141_000877_000667_004461_011915_023247,
  1_003254_000001_000001_000005_000005_000001_000035_000015_000219_000469_000725_001793_003683_003661_015627_030197,
  1_003263_000001_000001_000007_000005_000027_000003_000041_000153_000431_000487_000759_001345_006735_009937_026277,
  1_003268_000001_000001_000001_000011_000011_000013_000041_000121_000265_000465_001447_000005_003407_001907_010037,
  1_003272_000001_000003_000005_000009_000015_000063_000005_000007_000407_000083_000365_003687_007721_006973_016967,
  1_003277_000001_000001_000007_000007_000005_000041_000075_000155_000417_000565_001199_001111_002823_010703_022561,
  1_003292_000001_000003_000007_000005_000007_000043_000039_000185_000105_000327_001977_001137_003261_010583_011661,
  1_003295_000001_000003_000007_000007_000019_000019_000103_000137_000169_000273_001357_003413_007647_010531_032489,
  1_003296_000001_000001_000003_000013_000013_000003_000081_000023_000161_000295_000735_002031_001027_015513_020165,
  1_003301_000001_000001_000005_000001_000015_000001_000091_000035_000375_000207_001417_001115_002237_011749_008509,
  1_003306_000001_000003_000007_000003_000025_000051_000049_000219_000195_000417_001523_003953_005739_007499_027071,
  1_003313_000001_000001_000003_000011_000023_000029_000019_000081_000421_000633_000513_000547_007545_000029_011909,
  1_003346_000001_000001_000001_000007_000013_000061_000033_000243_000221_000231_000111_000879_002861_001795_027531,
  1_003367_000001_000003_000007_000003_000019_000021_000001_000141_000159_000605_000969_003013_006583_002447_019919,
  1_003371_000001_000003_000007_000003_000031_000009_000091_000083_000029_000873_000929_000043_002253_012539_023951,
  1_003373_000001_000001_000005_000003_000031_000015_000087_000105_000319_000973_001489_003417_003377_015749_002357,
  1_003374_000001_000001_000003_000015_000007_000023_000003_000081_000383_000419_000713_000997_006873_000593_000285,
  1_003376_000001_000003_000003_000001_000029_000013_000029_000101_000441_000693_002039_002951_005921_012129_012053,
  1_003382_000001_000001_000003_000015_000009_000029_000097_000117_000421_000433_001017_000125_003607_009415_006843,
  1_003388_000001_000003_000005_000009_000011_000013_000075_000155_000413_000075_000109_001599_006161_016115_012621,
  1_003391_000001_000003_000003_000003_000011_000013_000049_000225_000401_000599_001815_001643_007853_013305_025195,
  1_003403_000001_000003_000007_000005_000015_000011_000027_000095_000387_000931_000549_002179_003397_015883_016563,
  1_003406_000001_000001_000007_000003_000009_000039_000121_000005_000453_000027_001747_000657_002593_001289_012577,
  1_003413_000001_000003_000007_000005_000025_000025_000109_000049_000185_000985_000631_000803_003865_008955_017901,
  1_003420_000001_000001_000003_000013_000003_000059_000047_000049_000139_000275_001471_002995_005593_014011_018741,
  1_003427_000001_000001_000005_000015_000029_000011_000097_000225_000245_000291_001873_002365_000767_003419_014943,
  1_003441_000001_000003_000003_000005_000015_000017_000019_000209_000359_000891_001375_002003_007247_005299_028841,
  1_003453_000001_000003_000007_000007_000009_000055_000105_000035_000077_000047_001023_000013_002901_000847_010265,
  1_003464_000001_000003_000007_000007_000007_000005_000065_000233_000141_000277_001333_002357_000443_007257_021979,
  1_003469_000001_000003_000005_000011_000013_000063_000041_000087_000193_000737_001085_002317_007869_010149_012163,
  1_003481_000001_000003_000001_000001_000007_000057_000075_000235_000461_000857_000155_002679_005925_002565_010881,
  1_003488_000001_000001_000007_000015_000013_000041_000063_000135_000433_000387_001943_002249_005469_011679_028661,
  1_003497_000001_000003_000003_000013_000005_000003_000103_000161_000367_000649_000789_001179_004163_005699_016787,
  1_003503_000001_000003_000007_000007_000031_000013_000045_000141_000113_000769_001035_000457_006709_014989_027311,
  1_003511_000001_000001_000003_000001_000001_000043_000119_000145_000111_000593_001139_000417_000637_004437_017285,
  1_003515_000001_000003_000005_000009_000009_000033_000019_000099_000201_000685_001793_002621_006857_008769_005623,
  1_003525_000001_000003_000005_000005_000023_000043_000027_000189_000325_000415_000215_001253_003599_001215_010093,
  1_003529_000001_000001_000003_000013_000011_000035_000113_000173_000503_000019_001459_000503_005363_003967_013945]

def dirRows15_0_4 : List Nat := [
  1_003547_000001_000001_000005_000011_000031_000049_000013_000173_000199_000623_001231_002495_006581_007957_025321,
  1_003550_000001_000003_000001_000009_000023_000003_000079_000149_000505_000937_001839_003701_001673_008589_008031,
  1_003573_000001_000003_000003_000005_000021_000027_000107_000011_000505_000407_000177_003593_004729_012773_011685,
  1_003583_000001_000003_000001_000011_000029_000049_000079_000053_000061_000895_002035_000563_005613_006065_006207,
  1_003594_000001_000001_000003_000007_000001_000053_000003_000215_000099_000865_001749_003533_004305_001243_028463,
  1_003607_000001_000001_000001_000013_000031_000059_000115_000053_000403_000909_000847_000103_004967_010623_030073,
  1_003613_000001_000001_000007_000005_000027_000001_000119_000083_000457_000081_000395_000811_006221_014337_000541,
  1_003624_000001_000001_000005_000005_000005_000053_000083_000117_000269_000327_000875_000101_003343_000715_026339,
  1_003630_000001_000001_000001_000011_000031_000039_000121_000147_000305_000383_001211_001897_007647_011687_018907,
  1_003635_000001_000003_000003_000015_000023_000053_000017_000085_000395_000503_000061_001745_004713_004641_013787,
  1_003642_000001_000001_000007_000007_000027_000001_000105_000029_000287_000037_000959_000975_004427_004705_010175,
  1_003644_000001_000003_000003_000005_000007_000063_000057_000199_000027_000107_001095_003923_006969_000713_011619,
  1_003650_000001_000003_000005_000001_000005_000049_000085_000045_000449_000045_000049_003419_001109_000455_015917,
  1_003679_000001_000001_000001_000005_000013_000015_000039_000027_000467_000085_001537_003055_001977_008829_025231,
  1_003690_000001_000001_000001_000015_000001_000047_000023_000121_000147_000547_001865_001491_000779_003515_012667,
  1_003698_000001_000003_000003_000001_000019_000005_000077_000101_000001_000721_001149_002967_004925_011889_016655,
  1_003704_000001_000001_000001_000007_000001_000035_000095_000239_000127_000855_001031_000455_007631_006039_021983,
  1_003707_000001_000003_000007_000009_000023_000043_000075_000105_000335_000223_001825_003217_000413_007473_030005,
  1_003713_000001_000001_000005_000015_000029_000009_000043_000145_000223_000523_000511_000323_005955_011141_022533,
  1_003754_000001_000001_000003_000001_000013_000061_000093_000133_000461_000233_000383_000693_007347_003165_027493,
  1_003756_000001_000003_000007_000001_000013_000045_000113_000207_000053_001007_000815_001145_002937_000289_022195,
  1_003761_000001_000003_000005_000005_000019_000017_000113_000089_000019_001023_001625_003277_000697_005187_015433,
  1_003776_000001_000001_000003_000013_000021_000015_000015_000197_000409_000391_001993_002475_003189_004431_029585,
  1_003781_000001_000001_000005_000005_000031_000007_000111_000231_000187_000543_000045_003863_003811_004573_004437,
  1_003788_000001_000003_000003_000007_000019_000007_000123_000023_000079_000513_000189_003663_001291_013257_008949,
  1_003791_000001_000001_000005_000013_000003_000053_000109_000133_000157_000223_000651_003059_006055_014455_026903,
  1_003794_000001_000001_000007_000001_000023_000063_000059_000229_000017_000199_000643_000637_007631_013647_007399,
  1_003806_000001_000001_000001_000003_000001_000051_000119_000067_000335_000543_000913_003565_004795_013405_007463,
  1_003841_000001_000001_000005_000003_000031_000005_000091_000097_000023_000223_000837_001353_001929_012043_010039,
  1_003848_000001_000003_000005_000007_000019_000003_000079_000171_000301_000687_001545_000355_004709_012965_016797,
  1_003851_000001_000003_000005_000011_000011_000049_000111_000123_000251_000569_001605_000401_005439_013519_008847,
  1_003856_000001_000003_000001_000003_000003_000053_000007_000055_000369_000633_000181_004037_002993_015815_008661,
  1_003868_000001_000001_000001_000013_000031_000029_000075_000167_000279_000597_000539_001791_008013_004387_009717,
  1_003875_000001_000001_000005_000007_000017_000015_000099_000183_000211_000049_000225_003143_004537_013141_023375,
  1_003882_000001_000001_000003_000005_000003_000059_000025_000149_000467_000069_001939_001007_002765_004693_029815,
  1_003884_000001_000003_000001_000003_000017_000033_000119_000189_000447_000251_000879_000177_005395_013487_009587,
  1_003889_000001_000003_000003_000007_000015_000031_000115_000003_000021_000817_000475_001849_006041_012541_018701,
  1_003892_000001_000001_000005_000013_000031_000033_000007_000115_000361_000587_001919_001007_003537_007493_019357,
  1_003919_000001_000003_000007_000013_000023_000035_000015_000111_000123_000633_000805_001983_002109_014477_004985,
  1_003921_000001_000003_000003_000011_000025_000013_000011_000205_000097_000893_000927_001291_004007_013593_029693,
  1_003958_000001_000003_000005_000015_000009_000013_000121_000089_000215_000823_001389_001581_008095_004707_016061,
  1_003961_000001_000003_000001_000003_000023_000039_000083_000023_000047_000941_001419_002389_005699_007519_005829,
  1_003973_000001_000003_000001_000009_000023_000043_000079_000237_000093_000203_000695_000225_005645_003591_016775,
  1_003977_000001_000003_000005_000003_000015_000019_000089_000129_000375_000125_000225_001323_002267_011607_017937,
  1_003985_000001_000003_000003_000001_000031_000037_000093_000133_000377_000959_000707_000621_007179_015493_030287,
  1_003991_000001_000003_000007_000013_000005_000013_000015_000001_000037_000525_001641_002829_006139_004069_019187,
  1_004004_000001_000003_000003_000009_000017_000003_000067_000097_000375_000845_000403_000973_003919_002275_031627,
  1_004007_000001_000001_000003_000003_000025_000007_000091_000067_000271_000465_000481_003477_005229_000241_008411,
  1_004019_000001_000001_000001_000011_000001_000041_000109_000115_000075_000787_000309_002887_000179_009073_013895,
  1_004045_000001_000003_000003_000015_000011_000031_000113_000091_000303_000907_001933_002167_007799_011821_020659,
  1_004054_000001_000003_000001_000015_000027_000017_000021_000041_000099_000137_001397_000929_005819_011977_006201,
  1_004057_000001_000001_000007_000013_000021_000029_000047_000239_000287_000305_000899_002711_001723_003315_000199,
  1_004058_000001_000001_000001_000003_000031_000021_000101_000149_000107_000761_001197_001703_004803_008411_010649,
  1_004070_000001_000001_000005_000015_000023_000045_000109_000221_000085_000619_000169_001013_003305_009451_026189,
  1_004101_000001_000003_000005_000013_000007_000057_000019_000153_000231_000627_000565_001595_006309_005037_025505,
  1_004113_000001_000001_000007_000007_000001_000045_000043_000079_000271_000059_000219_002255_001785_007919_024061,
  1_004114_000001_000003_000007_000005_000031_000057_000057_000231_000033_000227_000531_000679_001141_000085_019777,
  1_004119_000001_000001_000003_000015_000011_000059_000059_000169_000459_000693_000907_001191_003783_012809_006263,
  1_004129_000001_000001_000007_000013_000019_000021_000105_000065_000267_000141_001547_000781_007295_013565_017775,
  1_004141_000001_000003_000003_000005_000031_000063_000097_000155_000477_000661_000329_000797_002539_004061_010537,
  1_004142_000001_000003_000003_000007_000011_000017_000119_000089_000071_000103_001043_000413_006035_012829_011559,
  1_004147_000001_000003_000001_000009_000005_000019_000053_000185_000103_000629_002015_001257_005163_010581_013449,
  1_004149_000001_000001_000001_000005_000023_000035_000025_000129_000179_000959_000677_002249_006315_012151_003459,
  1_004150_000001_000001_000001_000001_000009_000047_000093_000045_000035_000045_000265_002065_006225_000025_027135,
  1_004164_000001_000003_000001_000011_000021_000053_000127_000163_000311_000667_000597_001561_004515_000023_009551,
  1_004168_000001_000001_000003_000003_000007_000047_000105_000211_000241_000095_000389_000899_006001_008129_019889,
  1_004186_000001_000001_000003_000015_000029_000045_000009_000027_000483_000799_000269_001811_004493_007109_022149,
  1_004198_000001_000001_000003_000003_000029_000005_000057_000205_000187_000615_001677_003987_004577_008799_016311,
  1_004207_000001_000001_000005_000003_000015_000005_000091_000101_000319_000445_001261_002039_004071_008249_011611,
  1_004221_000001_000003_000007_000011_000019_000017_000001_000185_000153_000579_001001_002031_002295_016335_024771,
  1_004225_000001_000003_000003_000015_000013_000045_000093_000185_000319_000667_001085_000093_000577_011551_011355,
  1_004231_000001_000001_000007_000013_000003_000061_000045_000191_000051_000981_001151_002715_002503_004147_004587,
  1_004238_000001_000001_000003_000003_000027_000017_000071_000141_000057_000981_001033_000333_004639_015885_001039,
  1_004243_000001_000003_000003_000015_000021_000055_000033_000123_000357_000893_000829_004045_005027_011727_013357,
  1_004249_000001_000001_000001_000009_000031_000047_000027_000223_000311_000205_000179_003411_004019_010997_028115,
  1_004250_000001_000003_000005_000001_000003_000039_000015_000007_000501_000641_000735_000295_002005_012641_019779,
  1_004252_000001_000003_000003_000001_000015_000001_000075_000243_000329_000267_001323_002285_005389_011881_015737,
  1_004259_000001_000001_000003_000003_000013_000017_000101_000099_000209_000939_001147_003221_005159_003435_000183,
  1_004279_000001_000001_000001_000001_000027_000043_000029_000179_000179_000659_000807_000313_004165_000963_011317,
  1_004285_000001_000001_000003_000013_000009_000051_000125_000245_000381_000555_001383_003887_002045_012829_012029,
  1_004288_000001_000001_000001_000009_000029_000039_000055_000127_000235_000617_001553_003133_007735_014725_016733,
  1_004303_000001_000001_000003_000005_000015_000009_000047_000217_000089_000987_001083_001045_004745_012915_013719,
  1_004312_000001_000003_000003_000007_000023_000003_000035_000079_000045_000435_001549_002645_002831_010359_010041,
  1_004322_000001_000001_000007_000015_000031_000061_000025_000223_000511_000319_000487_001677_000739_007097_018417,
  1_004327_000001_000001_000007_000005_000019_000021_000123_000237_000299_000367_001341_001449_002949_008629_011051,
  1_004336_000001_000003_000007_000007_000031_000053_000125_000033_000257_000719_001297_000895_005095_010237_012309,
  1_004359_000001_000003_000001_000005_000031_000059_000073_000211_000097_000209_001289_004033_006143_014275_007997,
  1_004384_000001_000001_000005_000007_000031_000005_000075_000105_000389_000985_000009_004033_001185_007821_019083,
  1_004387_000001_000001_000001_000015_000011_000039_000073_000253_000275_000813_000025_003441_002493_005873_003739,
  1_004401_000001_000003_000007_000001_000031_000019_000119_000005_000109_000397_001329_003347_005941_012449_002533,
  1_004407_000001_000001_000001_000001_000005_000059_000061_000175_000435_000985_000065_003781_005425_015073_016361,
  1_004428_000001_000003_000005_000007_000031_000013_000053_000087_000069_000305_001455_000273_002197_004277_024423,
  1_004436_000001_000003_000003_000015_000013_000013_000091_000171_000071_000583_000015_003599_006801_010041_026097,
  1_004450_000001_000003_000003_000005_000005_000013_000091_000225_000063_000069_001795_000341_000461_005015_009471,
  1_004452_000001_000003_000007_000005_000021_000055_000109_000039_000459_000925_000229_002855_005807_002117_031739,
  1_004459_000001_000001_000003_000003_000001_000005_000017_000177_000401_000727_001555_003097_001243_005933_014579,
  1_004461_000001_000001_000007_000003_000019_000019_000037_000087_000105_000073_000197_004067_006237_010553_009207,
  1_004470_000001_000001_000003_000015_000001_000055_000119_000115_000441_000003_001003_001631_000197_012929_025385,
  1_004483_000001_000003_000007_000011_000031_000001_000119_000049_000467_000647_000685_002771_003689_011049_026787,
  1_004485_000001_000001_000001_000011_000019_000019_000021_000073_000459_000935_000615_000371_001099_014407_010375]

def dirRows15_0_5 : List Nat := [
  1_004486_000001_000003_000005_000013_000015_000003_000107_000179_000259_000677_001101_000315_007673_014639_011241,
  1_004492_000001_000001_000007_000009_000015_000021_000093_000025_000349_000023_001087_000027_005691_012997_029301,
  1_004497_000001_000003_000003_000005_000007_000043_000001_000195_000069_000753_001315_002629_003259_005595_019439,
  1_004514_000001_000003_000005_000005_000031_000009_000075_000217_000217_000197_001925_002033_003585_015219_020251,
  1_004533_000001_000001_000005_000011_000017_000031_000003_000209_000315_000049_000949_002267_004611_004375_016431,
  1_004537_000001_000001_000007_000009_000017_000035_000013_000115_000119_000553_001527_002857_003599_000391_025101,
  1_004546_000001_000003_000003_000015_000013_000059_000017_000177_000301_000719_000909_001663_005033_001129_000529,
  1_004551_000001_000001_000007_000005_000015_000013_000099_000157_000379_000975_001019_002251_003807_010621_000351,
  1_004555_000001_000003_000003_000013_000005_000057_000005_000031_000361_000981_000883_003723_002259_005151_011783,
  1_004560_000001_000001_000001_000013_000001_000043_000125_000019_000077_000509_001817_003795_001863_008401_027253,
  1_004569_000001_000001_000005_000007_000019_000041_000021_000151_000089_000189_000769_001937_004497_013607_024691,
  1_004576_000001_000001_000001_000009_000021_000009_000001_000195_000031_000907_001719_001549_000809_013629_016597,
  1_004582_000001_000001_000001_000003_000021_000061_000103_000219_000311_000849_000523_000021_004533_006367_003935,
  1_004586_000001_000001_000007_000009_000007_000033_000077_000019_000489_000933_001729_001813_006741_010701_000007,
  1_004609_000001_000001_000001_000005_000023_000053_000043_000063_000453_000209_001313_002847_002641_013783_014983,
  1_004610_000001_000003_000007_000007_000015_000045_000083_000241_000509_000659_000213_000221_005205_006019_018945,
  1_004612_000001_000001_000005_000009_000025_000043_000037_000009_000191_000505_000765_000295_000953_001045_011203,
  1_004649_000001_000003_000007_000011_000005_000049_000045_000177_000379_000695_000355_001711_007747_000497_007597,
  1_004652_000001_000001_000005_000013_000023_000047_000101_000145_000301_000207_000195_002225_008093_015345_014097,
  1_004672_000001_000003_000007_000013_000009_000009_000055_000223_000343_000921_001825_003281_002627_000855_027651,
  1_004677_000001_000001_000007_000001_000021_000001_000067_000149_000433_000111_000577_003675_000495_009043_023613,
  1_004684_000001_000003_000001_000013_000009_000039_000037_000073_000117_000559_001131_002511_007599_008393_024747,
  1_004690_000001_000003_000003_000007_000011_000015_000085_000229_000007_000021_001649_000739_000375_013991_027053,
  1_004695_000001_000001_000005_000005_000015_000041_000049_000117_000173_000825_001343_000377_001789_012519_030667,
  1_004696_000001_000001_000007_000015_000009_000011_000097_000099_000347_000729_000009_001703_001177_005189_009061,
  1_004702_000001_000001_000005_000011_000015_000025_000099_000063_000089_000675_000561_000215_008111_003955_024635,
  1_004705_000001_000001_000001_000001_000007_000053_000099_000193_000233_000731_000733_001883_007783_014413_014003,
  1_004717_000001_000003_000005_000007_000031_000023_000045_000153_000337_000293_000443_002301_005135_007455_013123,
  1_004726_000001_000003_000001_000003_000023_000053_000023_000165_000053_000875_001543_001035_004247_005101_028445,
  1_004736_000001_000001_000001_000015_000013_000041_000077_000093_000205_000743_001101_001413_002371_007183_012337,
  1_004753_000001_000001_000003_000015_000017_000063_000025_000101_000147_000149_001207_003525_002661_009539_011145,
  1_004754_000001_000003_000001_000009_000017_000005_000003_000035_000389_000909_001017_002803_005243_013025_008851,
  1_004756_000001_000001_000007_000015_000019_000027_000069_000091_000071_000547_001421_000831_006969_005517_028233,
  1_004775_000001_000001_000003_000003_000017_000045_000055_000063_000263_000819_001211_002739_000655_013269_022281,
  1_004801_000001_000003_000001_000005_000023_000013_000081_000251_000083_000551_000491_001029_003561_000357_023393,
  1_004819_000001_000003_000001_000013_000025_000027_000093_000143_000407_000403_001395_001733_003187_001917_031453,
  1_004828_000001_000001_000007_000013_000003_000021_000085_000113_000483_000461_001343_000561_002081_010857_024253,
  1_004838_000001_000001_000001_000001_000011_000011_000053_000135_000025_000163_001729_000617_001533_010881_016041,
  1_004852_000001_000001_000005_000001_000003_000049_000125_000139_000077_000891_000815_003431_004875_012513_004595,
  1_004856_000001_000001_000001_000001_000027_000063_000111_000109_000421_000425_000345_001613_005447_001357_032413,
  1_004873_000001_000003_000005_000003_000017_000005_000037_000171_000259_000281_001003_002901_003241_015557_021415,
  1_004887_000001_000001_000005_000011_000015_000055_000075_000199_000493_000215_001625_002345_007873_002325_011003,
  1_004891_000001_000003_000007_000001_000021_000033_000023_000005_000495_000941_001185_000475_005799_015161_010677,
  1_004904_000001_000001_000005_000009_000031_000037_000037_000029_000217_000389_000297_003097_007319_002601_015307,
  1_004912_000001_000003_000007_000005_000007_000045_000111_000167_000297_000275_001669_002489_001511_015753_001289,
  1_004921_000001_000003_000001_000007_000003_000045_000019_000011_000189_000199_001227_002647_001897_009077_017189,
  1_004936_000001_000001_000001_000013_000015_000039_000019_000179_000147_000341_000283_003029_007599_008937_018761,
  1_004941_000001_000003_000003_000009_000003_000011_000041_000255_000365_000835_000921_000389_000919_015223_014541,
  1_004942_000001_000001_000003_000003_000005_000037_000029_000203_000313_000271_001207_000487_003711_003811_026757,
  1_004963_000001_000003_000007_000009_000019_000053_000049_000139_000351_000537_001681_001595_005399_013839_028685,
  1_004984_000001_000003_000001_000001_000015_000035_000021_000037_000247_000891_001855_001243_003137_010381_030379,
  1_004990_000001_000003_000007_000005_000009_000047_000091_000025_000479_000337_000781_003545_001045_009491_022853,
  1_005005_000001_000001_000005_000015_000019_000031_000081_000005_000117_000923_000565_002443_007383_001795_011685,
  1_005013_000001_000003_000003_000005_000017_000015_000021_000245_000489_000889_002047_002737_007445_014785_013401,
  1_005020_000001_000001_000001_000015_000019_000045_000067_000117_000299_000607_000953_000743_006863_012123_006701,
  1_005039_000001_000001_000003_000001_000001_000043_000019_000129_000345_000861_000209_002387_007205_007131_008235,
  1_005048_000001_000003_000005_000001_000001_000013_000075_000099_000333_000157_000023_001217_001857_015479_016031,
  1_005062_000001_000003_000003_000011_000007_000061_000119_000089_000491_000401_000227_001739_003807_016003_002875,
  1_005080_000001_000003_000007_000015_000013_000055_000003_000159_000405_000593_000975_000361_002563_006061_028087,
  1_005085_000001_000001_000003_000013_000019_000005_000005_000009_000119_000041_000033_001111_004443_004663_028841,
  1_005086_000001_000001_000007_000007_000025_000059_000125_000255_000049_000947_001673_002947_006369_002267_008813,
  1_005095_000001_000001_000005_000015_000025_000025_000111_000193_000217_000193_000821_002779_000069_002957_027043,
  1_005096_000001_000003_000005_000007_000021_000019_000051_000157_000203_000487_001745_001875_000911_014071_007557,
  1_005102_000001_000001_000005_000009_000003_000015_000055_000073_000313_000245_001061_001929_003035_000607_011563,
  1_005107_000001_000001_000005_000007_000003_000057_000105_000121_000461_000043_000803_001801_004059_002157_017547,
  1_005141_000001_000003_000007_000007_000019_000011_000001_000121_000499_000841_000601_003515_002969_013697_008917,
  1_005145_000001_000003_000003_000003_000013_000035_000113_000231_000391_000689_000697_002871_007387_000715_027005,
  1_005148_000001_000001_000001_000013_000019_000005_000017_000043_000175_000291_000987_001917_007635_015655_010689,
  1_005157_000001_000001_000007_000015_000019_000037_000121_000243_000125_000623_001231_000029_002325_005147_021435,
  1_005158_000001_000003_000005_000015_000025_000027_000057_000187_000077_000401_001489_002977_005415_003381_002551,
  1_005162_000001_000001_000001_000007_000001_000001_000085_000027_000115_000559_000009_002365_000711_005733_002819,
  1_005172_000001_000003_000001_000015_000009_000029_000061_000113_000169_000349_000591_001061_006041_007613_023691,
  1_005182_000001_000001_000005_000001_000013_000045_000049_000227_000345_000563_000087_003597_003961_007205_008441,
  1_005184_000001_000001_000001_000005_000003_000021_000121_000183_000463_000083_001365_000539_001485_010063_024867,
  1_005193_000001_000003_000005_000005_000003_000061_000101_000237_000041_000147_001907_003049_007583_008283_006099,
  1_005199_000001_000003_000001_000015_000031_000057_000019_000155_000445_000805_001793_000207_001975_003357_014281,
  1_005201_000001_000001_000007_000013_000009_000039_000027_000073_000165_000345_000543_004095_000133_010469_011573,
  1_005204_000001_000001_000007_000015_000017_000057_000099_000081_000359_000367_001057_001173_004225_015127_002615,
  1_005211_000001_000003_000005_000003_000031_000023_000113_000111_000495_000947_001625_001195_002053_001509_001347,
  1_005223_000001_000001_000005_000005_000009_000047_000025_000063_000455_000107_000771_003815_003827_016287_011615,
  1_005230_000001_000001_000007_000009_000017_000061_000051_000215_000063_000123_001253_003927_000721_009647_003283,
  1_005232_000001_000001_000005_000015_000011_000017_000083_000255_000473_000107_000681_000763_007855_008043_031503,
  1_005253_000001_000003_000001_000007_000007_000031_000037_000005_000253_000155_002017_000609_001421_014927_025241,
  1_005257_000001_000003_000003_000013_000031_000025_000021_000241_000431_000193_000681_002265_005091_011479_021443,
  1_005260_000001_000003_000005_000005_000015_000009_000049_000255_000157_000995_000631_001995_003605_009085_024245,
  1_005284_000001_000003_000003_000007_000019_000031_000085_000153_000493_000951_000451_001587_006609_003681_013205,
  1_005306_000001_000001_000005_000001_000017_000041_000107_000231_000307_000361_000575_003239_003443_016159_020625,
  1_005331_000001_000001_000007_000009_000031_000049_000093_000079_000181_000117_001241_003645_004901_012599_013247,
  1_005334_000001_000003_000003_000009_000007_000031_000127_000201_000011_000199_001851_000023_005667_008159_020951,
  1_005364_000001_000003_000003_000007_000003_000037_000029_000189_000065_000461_000769_000321_006577_016223_016865,
  1_005367_000001_000001_000005_000011_000001_000013_000091_000167_000033_000111_001445_001047_002479_012623_022893,
  1_005371_000001_000001_000003_000001_000003_000001_000047_000185_000329_000903_001651_003005_000907_001255_008303,
  1_005382_000001_000003_000005_000013_000019_000031_000005_000233_000265_000769_001303_002503_002229_014019_020257,
  1_005386_000001_000003_000007_000003_000027_000011_000067_000195_000005_000661_000125_003761_007211_016043_007267,
  1_005399_000001_000001_000001_000003_000027_000013_000115_000025_000473_000417_001751_002223_002099_005913_014273,
  1_005400_000001_000003_000007_000015_000013_000053_000099_000115_000225_000737_001621_000539_004131_000471_031865,
  1_005409_000001_000001_000005_000005_000025_000019_000039_000207_000153_000569_001755_002477_003065_007383_029919,
  1_005415_000001_000003_000005_000011_000013_000059_000033_000003_000435_000273_000701_003819_007291_011803_026111,
  1_005416_000001_000001_000003_000009_000029_000019_000071_000059_000093_001019_000887_000083_004675_007541_026821,
  1_005424_000001_000003_000001_000003_000021_000053_000071_000073_000043_000321_001581_001399_004043_012995_016825]

def dirRows15_0_6 : List Nat := [
  1_005436_000001_000003_000007_000015_000003_000013_000037_000011_000093_000873_001193_003481_000451_015869_017879,
  1_005454_000001_000003_000001_000011_000031_000019_000101_000057_000129_000753_000853_000463_006757_011083_008667,
  1_005462_000001_000003_000005_000015_000025_000041_000025_000197_000235_000609_000905_000993_003233_001935_024661,
  1_005468_000001_000003_000001_000005_000021_000007_000053_000107_000473_000077_001135_001045_004933_005615_015931,
  1_005481_000001_000003_000007_000011_000003_000009_000105_000183_000151_000527_000425_000975_004073_000913_002793,
  1_005505_000001_000001_000007_000013_000019_000061_000081_000009_000413_000851_001723_001113_001453_008635_003353,
  1_005511_000001_000003_000007_000015_000019_000053_000083_000031_000441_000343_000575_000935_004543_001303_012567,
  1_005518_000001_000001_000001_000005_000029_000019_000119_000075_000003_000591_000845_000649_001717_013695_026905,
  1_005530_000001_000001_000007_000009_000005_000053_000127_000191_000015_000773_001433_002899_000021_004977_017839,
  1_005532_000001_000001_000005_000009_000021_000009_000099_000115_000397_000099_000725_003835_000973_001219_021159,
  1_005539_000001_000003_000005_000003_000007_000039_000029_000093_000303_000913_000981_003549_005225_010907_000393,
  1_005553_000001_000003_000003_000011_000009_000025_000105_000101_000001_000867_000389_002241_000773_014123_010015,
  1_005573_000001_000001_000005_000001_000001_000037_000117_000213_000391_000779_001851_001485_001277_005607_000819,
  1_005580_000001_000003_000007_000001_000003_000005_000043_000047_000483_000367_000749_001693_004961_015257_003775,
  1_005597_000001_000003_000003_000001_000027_000011_000021_000083_000437_000379_001041_000393_005611_002421_031739,
  1_005602_000001_000003_000005_000007_000019_000001_000079_000063_000053_000201_001159_002501_006327_011317_009537,
  1_005608_000001_000003_000005_000013_000009_000037_000061_000217_000427_000913_001311_003503_005473_010583_019723,
  1_005611_000001_000001_000003_000009_000011_000029_000121_000175_000141_000515_000925_000837_006011_010419_032157,
  1_005613_000001_000003_000005_000009_000027_000057_000097_000175_000365_000367_001737_003845_001257_012243_002201,
  1_005625_000001_000003_000003_000009_000023_000001_000053_000123_000127_000333_001335_000707_005747_006541_009809,
  1_005632_000001_000003_000001_000009_000017_000037_000101_000041_000091_000061_000433_000979_004345_012351_010829,
  1_005635_000001_000003_000003_000013_000003_000021_000015_000049_000257_000099_001793_002987_005233_011625_028069,
  1_005638_000001_000001_000007_000011_000021_000013_000089_000011_000135_000153_000783_002893_006815_012007_015605,
  1_005652_000001_000003_000007_000013_000005_000061_000073_000005_000269_000699_000925_002925_005919_005841_024875,
  1_005659_000001_000003_000005_000005_000025_000045_000043_000093_000015_000927_001253_000319_001173_014559_020221,
  1_005677_000001_000001_000003_000003_000027_000045_000009_000103_000447_000627_001239_003869_002169_000049_017917,
  1_005686_000001_000003_000007_000007_000011_000009_000001_000001_000001_000527_000825_003295_000623_002095_010537,
  1_005689_000001_000003_000003_000011_000021_000011_000059_000165_000033_000743_001461_001535_006393_001301_017823,
  1_005698_000001_000001_000007_000003_000019_000043_000047_000245_000469_000551_001447_001963_000169_001481_031925,
  1_005703_000001_000001_000003_000001_000011_000021_000051_000007_000251_000199_001153_000767_006417_003417_030171,
  1_005707_000001_000003_000007_000001_000031_000005_000041_000103_000447_000263_000211_002029_008021_004705_010579,
  1_005731_000001_000001_000003_000005_000017_000025_000055_000075_000393_000107_002017_002389_001685_014021_009161,
  1_005738_000001_000001_000001_000009_000013_000001_000075_000237_000205_000461_000689_002531_002839_013925_023351,
  1_005743_000001_000003_000007_000001_000023_000039_000033_000189_000157_000571_000239_001053_001559_001685_023059,
  1_005748_000001_000003_000003_000003_000027_000061_000071_000121_000049_000157_001341_001707_002417_011689_026507,
  1_005758_000001_000003_000007_000007_000019_000063_000047_000053_000095_000791_001467_001273_002045_000755_008555,
  1_005762_000001_000001_000003_000015_000027_000033_000021_000253_000317_000153_001509_001765_003809_000601_005907,
  1_005768_000001_000003_000005_000015_000011_000017_000097_000091_000165_000199_001751_002135_001315_003077_029995,
  1_005773_000001_000003_000001_000005_000003_000033_000093_000049_000039_000743_000341_002549_007603_003369_030889,
  1_005776_000001_000001_000003_000013_000003_000005_000087_000063_000293_000785_001591_000675_003915_002209_018201,
  1_005815_000001_000003_000003_000011_000003_000015_000069_000231_000241_000127_000429_002201_008173_012549_025745,
  1_005841_000001_000001_000005_000011_000015_000039_000003_000029_000125_000685_000643_001385_000829_007347_028793,
  1_005847_000001_000001_000007_000015_000027_000015_000059_000237_000299_000773_001097_003875_006503_007129_028495,
  1_005860_000001_000003_000005_000013_000009_000017_000031_000227_000069_000443_001633_000525_001659_014681_015209,
  1_005870_000001_000003_000005_000005_000013_000051_000069_000173_000111_000433_000279_002145_002091_009741_024881,
  1_005875_000001_000003_000001_000007_000007_000035_000055_000051_000357_000099_001789_000333_002073_010151_014527,
  1_005877_000001_000003_000003_000007_000013_000041_000101_000087_000425_000701_001143_002733_006473_008667_017419,
  1_005884_000001_000001_000005_000005_000025_000029_000063_000031_000385_000537_000563_000607_006723_009251_006531,
  1_005892_000001_000003_000005_000005_000009_000063_000111_000131_000239_000723_000705_002805_006579_012691_017521,
  1_005902_000001_000003_000001_000007_000031_000055_000101_000225_000477_000271_000611_003179_007859_009835_002165,
  1_005910_000001_000001_000003_000003_000005_000015_000081_000127_000391_000333_000419_001091_005997_012315_031521,
  1_005916_000001_000003_000005_000015_000023_000007_000035_000109_000181_000295_000825_000419_000969_015753_009365,
  1_005919_000001_000003_000005_000005_000025_000023_000069_000177_000325_000359_001577_000619_006233_011753_008103,
  1_005935_000001_000003_000005_000011_000031_000013_000079_000061_000241_001011_001961_000949_006211_000497_007099,
  1_005937_000001_000003_000005_000003_000025_000019_000067_000235_000337_001015_001485_000355_003653_012735_014503,
  1_005944_000001_000003_000005_000007_000031_000023_000035_000231_000147_000015_000263_001995_000431_005941_018931,
  1_005947_000001_000003_000003_000007_000001_000035_000037_000007_000085_000443_000715_000743_002189_012537_017427,
  1_005958_000001_000001_000003_000001_000007_000041_000001_000209_000121_000929_000661_003999_000955_005123_031115,
  1_005962_000001_000001_000003_000005_000011_000043_000127_000125_000107_000293_000273_002071_003003_011631_007769,
  1_005969_000001_000001_000001_000013_000013_000029_000039_000217_000111_000779_001287_001675_004201_004869_020403,
  1_005981_000001_000001_000003_000015_000025_000053_000025_000135_000389_000925_001971_000663_007545_002673_007725,
  1_005995_000001_000001_000005_000013_000003_000059_000097_000091_000357_000045_000947_003031_008095_006269_013975,
  1_005998_000001_000001_000005_000015_000025_000031_000001_000171_000375_000939_000507_003591_001089_013605_002813,
  1_006003_000001_000001_000003_000007_000025_000021_000041_000131_000147_000737_000009_001603_001859_011573_028397,
  1_006010_000001_000003_000003_000009_000021_000009_000059_000027_000169_000875_000711_001389_002899_007937_004173,
  1_006016_000001_000001_000005_000009_000013_000029_000071_000039_000051_000337_001067_002661_001203_005967_019249,
  1_006025_000001_000003_000007_000001_000017_000021_000043_000079_000181_000741_001901_003445_007171_002109_001589,
  1_006031_000001_000001_000003_000009_000023_000037_000105_000051_000227_000775_001265_002987_002197_013903_028891,
  1_006036_000001_000001_000001_000013_000023_000047_000111_000041_000093_000261_000075_002155_004301_011517_016101,
  1_006039_000001_000001_000003_000003_000027_000027_000123_000125_000501_000775_000413_001065_007607_015065_026013,
  1_006045_000001_000003_000007_000003_000027_000011_000059_000087_000207_000743_001765_002969_000913_008101_011583,
  1_006049_000001_000003_000003_000001_000023_000007_000113_000017_000285_000993_000695_002399_005019_004779_028917,
  1_006052_000001_000003_000001_000005_000011_000051_000049_000139_000213_000435_001475_002209_006695_012981_009851,
  1_006067_000001_000003_000005_000007_000001_000063_000031_000151_000173_000767_001453_001497_006911_009597_025551,
  1_006074_000001_000001_000007_000007_000021_000053_000039_000159_000389_000231_000309_000359_007701_014819_005175,
  1_006087_000001_000001_000001_000001_000011_000047_000083_000029_000247_000089_000369_002727_003103_014421_017369,
  1_006101_000001_000003_000001_000005_000025_000025_000111_000245_000239_000755_000113_001765_003583_000917_000403,
  1_006121_000001_000003_000003_000003_000005_000059_000085_000151_000463_000591_000743_003767_000121_002927_011031,
  1_006129_000001_000003_000005_000009_000011_000039_000077_000161_000275_000233_001991_002683_006545_002423_032113,
  1_006142_000001_000003_000005_000011_000005_000057_000013_000229_000329_000757_001863_003959_004243_007265_015599,
  1_006151_000001_000001_000001_000001_000001_000023_000019_000067_000453_000593_002011_001813_004695_008903_009623,
  1_006157_000001_000003_000003_000007_000001_000029_000103_000255_000493_000647_001709_004065_004199_000949_028829,
  1_006166_000001_000001_000007_000009_000003_000055_000053_000033_000005_000223_000423_003347_007647_007211_025157,
  1_006170_000001_000003_000005_000013_000003_000043_000079_000255_000471_000573_001007_002119_006731_010047_023179,
  1_006175_000001_000001_000001_000003_000007_000039_000055_000061_000053_000377_000435_000401_003307_012621_014299,
  1_006186_000001_000003_000003_000007_000021_000031_000067_000017_000243_000425_000747_002995_001389_002557_018415,
  1_006203_000001_000003_000001_000003_000003_000039_000075_000011_000447_000249_001135_001011_001657_010767_019501,
  1_006217_000001_000003_000001_000011_000017_000051_000117_000129_000017_000143_000785_000103_005049_014703_028479,
  1_006231_000001_000003_000007_000005_000013_000017_000075_000255_000075_000661_001175_000477_001811_001479_015783,
  1_006241_000001_000003_000007_000009_000011_000057_000101_000077_000431_000247_000997_003657_005117_006815_003841,
  1_006242_000001_000001_000005_000001_000017_000021_000101_000183_000209_000069_000299_001585_006381_012983_010053,
  1_006248_000001_000001_000007_000003_000005_000013_000021_000063_000083_000857_000749_001251_005363_009629_016563,
  1_006256_000001_000003_000003_000009_000003_000059_000009_000045_000055_000489_000137_002423_002661_012111_004375,
  1_006265_000001_000001_000005_000009_000023_000009_000041_000177_000447_000671_001631_003115_004215_014435_008743,
  1_006275_000001_000003_000007_000011_000019_000023_000015_000221_000413_000783_001247_002343_004397_003145_032043,
  1_006277_000001_000003_000003_000001_000031_000055_000031_000087_000333_000849_001777_000343_005199_001507_011621,
  1_006302_000001_000003_000007_000003_000017_000057_000063_000063_000111_000977_000631_003019_002953_014273_029209,
  1_006315_000001_000003_000001_000013_000009_000039_000087_000015_000397_000185_000701_001487_003807_013727_019883,
  1_006318_000001_000003_000007_000001_000017_000057_000057_000157_000119_000181_000899_000353_003603_015041_007421,
  1_006330_000001_000001_000007_000003_000029_000013_000029_000191_000105_000373_000961_001991_005531_006793_029497]

def dirRows15_0_7 : List Nat := [
  1_006343_000001_000003_000003_000011_000007_000061_000065_000039_000215_000187_000191_001651_002481_003951_024965,
  1_006347_000001_000001_000007_000005_000025_000011_000105_000023_000257_000771_001359_002837_007821_012223_028033,
  1_006350_000001_000003_000005_000011_000003_000003_000023_000139_000407_000885_001679_002979_008149_014281_012487,
  1_006352_000001_000003_000007_000003_000021_000045_000013_000085_000249_001015_002023_001429_000965_007091_031721,
  1_006371_000001_000001_000001_000013_000019_000005_000119_000047_000091_000285_000211_002607_004287_009197_000455,
  1_006383_000001_000003_000001_000001_000009_000059_000025_000137_000121_000287_000577_003325_002365_008823_005033,
  1_006386_000001_000003_000003_000013_000025_000063_000099_000043_000015_000855_000245_003189_000059_005181_021299,
  1_006405_000001_000003_000005_000011_000007_000009_000041_000157_000359_000773_001347_002049_004589_013731_032133,
  1_006409_000001_000001_000007_000011_000031_000037_000083_000105_000183_000375_000079_001821_001989_015199_022207,
  1_006410_000001_000001_000005_000003_000023_000037_000127_000009_000467_000651_000993_000069_006943_004093_020871,
  1_006433_000001_000001_000003_000015_000031_000049_000123_000149_000211_000371_001825_003011_000485_001251_017343,
  1_006436_000001_000001_000001_000015_000011_000033_000127_000251_000089_000317_001869_000219_002275_014201_027063,
  1_006439_000001_000001_000005_000005_000019_000005_000081_000035_000233_000095_000009_000863_000725_011095_016217,
  1_006463_000001_000001_000001_000015_000023_000047_000051_000043_000169_000637_000865_000057_001509_001683_007587,
  1_006468_000001_000003_000001_000003_000007_000007_000117_000187_000273_000303_000717_003091_002083_003315_000647,
  1_006477_000001_000001_000005_000015_000013_000027_000023_000227_000145_000547_001783_000987_006895_007135_011023,
  1_006496_000001_000001_000005_000011_000021_000039_000057_000203_000477_000017_000985_001729_004297_007483_013263,
  1_006511_000001_000003_000007_000009_000003_000049_000071_000045_000143_000967_000039_000583_002123_005165_017437,
  1_006516_000001_000001_000001_000009_000021_000051_000071_000163_000441_000709_000397_000445_006167_007753_011513,
  1_006519_000001_000001_000007_000007_000027_000035_000005_000181_000449_000053_000621_003401_005263_004557_009141,
  1_006523_000001_000001_000005_000007_000007_000037_000083_000111_000485_000881_000465_003371_005603_000371_029393,
  1_006530_000001_000003_000001_000015_000007_000047_000041_000245_000377_000823_000309_003929_002159_013917_013365,
  1_006539_000001_000003_000007_000007_000007_000029_000025_000141_000019_000611_000079_002689_000109_012321_008345,
  1_006547_000001_000001_000001_000013_000003_000053_000113_000151_000381_000791_000137_003185_003567_000211_000597,
  1_006589_000001_000001_000003_000009_000007_000053_000087_000089_000491_000861_000467_003763_002025_004187_009637,
  1_006592_000001_000001_000007_000001_000027_000033_000071_000041_000063_001011_000741_001135_000175_003739_021493,
  1_006601_000001_000003_000003_000005_000009_000019_000055_000175_000325_000055_001193_001423_002049_009633_017515,
  1_006610_000001_000001_000003_000001_000027_000055_000069_000103_000401_000707_000825_000399_006799_013199_006295,
  1_006616_000001_000003_000007_000003_000019_000063_000025_000151_000017_000159_001673_000615_006317_013261_026267,
  1_006619_000001_000003_000007_000009_000027_000001_000077_000129_000423_000647_000707_002579_003525_006723_031615,
  1_006626_000001_000003_000003_000007_000007_000031_000035_000241_000309_000369_000895_003683_004795_011319_000451,
  1_006635_000001_000003_000005_000007_000017_000007_000117_000141_000267_000713_000569_001915_004369_007793_030853,
  1_006637_000001_000003_000007_000001_000029_000061_000081_000073_000413_000013_001977_003229_005853_008451_015539,
  1_006638_000001_000003_000007_000001_000005_000045_000109_000021_000431_000487_002019_002647_000927_016015_010711,
  1_006652_000001_000003_000001_000003_000011_000019_000037_000183_000451_000377_000269_003993_003229_004899_026561,
  1_006656_000001_000003_000001_000011_000005_000019_000121_000055_000057_000117_000687_000083_003047_001367_017595,
  1_006662_000001_000003_000001_000007_000017_000031_000041_000219_000239_000963_000199_002895_005599_007639_017201,
  1_006689_000001_000003_000003_000005_000027_000053_000071_000183_000509_000771_001809_001539_002229_004893_017115,
  1_006699_000001_000001_000003_000009_000009_000009_000013_000049_000265_000643_001929_000859_000497_009797_027771,
  1_006710_000001_000003_000007_000011_000019_000039_000115_000139_000207_000903_000963_001849_004403_006229_010021,
  1_006714_000001_000003_000007_000013_000003_000057_000099_000223_000503_000423_001755_000807_001885_000213_018723,
  1_006719_000001_000003_000007_000015_000011_000015_000111_000193_000243_000599_000593_003385_005393_015073_017777,
  1_006739_000001_000001_000005_000003_000019_000063_000121_000207_000099_000435_001961_002747_006405_003971_023481,
  1_006751_000001_000003_000005_000013_000009_000029_000079_000131_000415_000049_000229_001003_003263_012975_015987,
  1_006775_000001_000001_000003_000007_000001_000041_000127_000155_000029_000073_000963_000659_002741_003465_002595,
  1_006779_000001_000001_000003_000005_000023_000023_000093_000233_000113_000521_000427_001557_006917_012953_022441,
  1_006788_000001_000001_000005_000013_000005_000025_000085_000191_000387_000069_000955_000243_004473_009813_021711,
  1_006798_000001_000003_000003_000007_000001_000053_000095_000065_000231_000995_000539_002103_005513_014087_028655,
  1_006815_000001_000003_000005_000003_000017_000013_000019_000227_000197_000091_001437_001121_003307_006903_003297,
  1_006819_000001_000001_000005_000011_000031_000029_000109_000171_000257_000783_000861_000009_004895_001859_010909,
  1_006825_000001_000001_000007_000013_000005_000047_000061_000005_000363_000351_001525_000823_002883_012435_017629,
  1_006826_000001_000001_000005_000011_000009_000003_000069_000159_000371_000477_001223_001973_002757_000413_031223,
  1_006836_000001_000001_000003_000005_000023_000045_000043_000195_000423_000829_001673_001563_006633_014775_021097,
  1_006843_000001_000001_000003_000003_000013_000009_000107_000209_000049_000609_001047_003691_007483_004269_007557,
  1_006845_000001_000001_000003_000015_000003_000043_000073_000161_000053_000813_000325_003439_007009_008691_011711,
  1_006858_000001_000001_000003_000003_000023_000045_000099_000061_000407_000015_001515_001557_000953_008567_013729,
  1_006868_000001_000001_000005_000009_000031_000035_000117_000057_000227_000923_001373_001811_003405_011979_010149,
  1_006877_000001_000001_000003_000009_000015_000053_000105_000209_000153_000067_001477_000667_003077_004911_003871,
  1_006881_000001_000001_000003_000003_000021_000053_000093_000101_000183_001023_000003_003041_005815_009043_005801,
  1_006891_000001_000003_000003_000005_000017_000049_000127_000161_000321_000869_001369_000923_003235_000711_030007,
  1_006896_000001_000001_000003_000003_000015_000017_000097_000229_000389_000159_001075_002001_007905_015191_014693,
  1_006899_000001_000001_000005_000011_000005_000005_000121_000173_000095_000173_001883_003915_001439_009981_024375,
  1_006901_000001_000003_000003_000001_000031_000053_000029_000189_000037_000623_000217_000949_003959_007189_025427,
  1_006908_000001_000003_000005_000009_000021_000045_000101_000023_000355_000729_000797_002317_002931_007433_029175,
  1_006914_000001_000003_000007_000001_000001_000063_000063_000155_000237_000865_001169_000043_007335_006445_007979,
  1_006916_000001_000003_000007_000007_000011_000051_000037_000199_000503_000991_000319_003013_007885_012837_032419,
  1_006923_000001_000003_000007_000007_000027_000031_000101_000243_000037_000811_001909_000109_006455_007903_011821,
  1_006925_000001_000001_000003_000013_000023_000021_000089_000099_000243_000605_001017_001871_001101_012825_008227,
  1_006928_000001_000003_000003_000013_000019_000003_000051_000059_000501_000605_000385_002189_003229_007981_031407,
  1_006931_000001_000001_000001_000001_000025_000011_000127_000215_000295_000237_001245_003657_007803_003897_000655,
  1_006934_000001_000001_000007_000007_000005_000009_000063_000129_000143_000417_000795_003409_002847_005887_003093,
  1_006937_000001_000003_000003_000013_000007_000057_000067_000057_000005_000847_001185_003349_004841_011457_008857,
  1_006938_000001_000001_000003_000003_000009_000053_000051_000043_000085_000437_000013_002543_003651_015493_000767,
  1_006949_000001_000001_000007_000009_000001_000049_000097_000115_000133_001011_001399_002653_007765_013999_012097,
  1_006956_000001_000001_000005_000001_000003_000027_000123_000107_000389_000401_001759_001333_001371_005277_014865,
  1_006973_000001_000001_000005_000001_000013_000023_000003_000123_000137_000821_000399_001671_003095_003121_031387,
  1_006976_000001_000001_000005_000003_000007_000035_000057_000237_000509_000753_001783_002815_006495_013283_007091,
  1_006981_000001_000001_000007_000011_000005_000037_000077_000109_000007_000969_001087_003705_001695_014223_028959,
  1_006988_000001_000003_000001_000011_000025_000005_000025_000163_000179_000185_000671_001031_004537_011601_009323,
  1_006999_000001_000001_000003_000007_000017_000025_000049_000221_000183_000619_001953_000343_004523_014883_006833,
  1_007016_000001_000003_000007_000005_000027_000019_000059_000153_000011_000807_000513_003019_006875_005307_008405,
  1_007027_000001_000001_000001_000013_000025_000041_000021_000109_000321_000135_000497_001235_005177_005167_018609,
  1_007029_000001_000001_000007_000005_000021_000053_000025_000197_000411_000503_001009_001921_004305_002633_031415,
  1_007055_000001_000003_000005_000001_000025_000045_000027_000227_000271_000903_000639_003805_000657_008683_029585,
  1_007058_000001_000001_000005_000003_000009_000049_000037_000035_000351_000491_000851_002983_000031_005619_006919,
  1_007074_000001_000001_000005_000003_000011_000049_000033_000153_000393_001017_001561_002795_004435_012589_022349,
  1_007083_000001_000001_000001_000015_000017_000029_000049_000245_000217_000359_001133_000393_003317_000415_016407,
  1_007093_000001_000001_000003_000005_000003_000009_000095_000063_000319_000319_001009_000019_006453_016279_006975,
  1_007100_000001_000001_000005_000009_000003_000025_000067_000095_000369_000237_000285_002409_000671_005143_000121,
  1_007105_000001_000001_000003_000001_000009_000049_000035_000087_000317_000185_000445_002263_007923_010183_026615,
  1_007112_000001_000003_000003_000011_000009_000059_000029_000135_000129_000477_000353_003571_001057_016329_023523,
  1_007118_000001_000001_000001_000015_000013_000011_000019_000005_000133_000827_001799_001893_001939_001101_012147,
  1_007120_000001_000001_000003_000003_000015_000049_000033_000185_000511_001013_000041_003499_006235_007643_016725,
  1_007129_000001_000001_000005_000011_000027_000045_000089_000157_000063_000137_002047_001275_004995_000625_006111,
  1_007166_000001_000003_000007_000011_000003_000001_000121_000001_000341_000033_001895_003033_003929_010257_021037,
  1_007207_000001_000003_000003_000011_000007_000011_000117_000005_000115_000287_000335_003415_005397_015065_019121,
  1_007216_000001_000003_000003_000013_000021_000025_000015_000125_000277_000125_000801_003761_002623_011333_016867,
  1_007226_000001_000003_000005_000011_000019_000033_000021_000071_000499_000747_001515_000185_001759_014623_000895,
  1_007234_000001_000003_000007_000001_000029_000035_000009_000203_000277_000299_001509_002017_002897_014175_001643,
  1_007236_000001_000003_000005_000011_000007_000047_000111_000197_000459_000941_001619_002119_002191_011049_006811]

def dirRows15_0_8 : List Nat := [
  1_007246_000001_000001_000005_000009_000007_000043_000103_000115_000087_000269_001235_000077_005887_001611_029041,
  1_007248_000001_000001_000005_000007_000001_000061_000083_000225_000179_000081_001145_002403_001485_008967_020607,
  1_007254_000001_000003_000003_000001_000025_000047_000027_000157_000359_000803_001683_001995_006445_013113_017899,
  1_007263_000001_000003_000001_000007_000021_000037_000043_000119_000245_000049_001581_002275_003311_004087_029765,
  1_007273_000001_000001_000003_000013_000005_000033_000049_000191_000455_000105_000665_003855_003207_002671_032203,
  1_007274_000001_000003_000001_000001_000025_000063_000019_000217_000017_000353_000947_001951_004097_009041_011921,
  1_007293_000001_000003_000001_000007_000021_000031_000113_000097_000347_000993_001799_003831_003711_006193_001235,
  1_007297_000001_000001_000001_000005_000003_000063_000011_000203_000425_000445_001361_000531_001265_001755_011685,
  1_007310_000001_000003_000001_000007_000013_000029_000023_000085_000057_000467_001835_000133_007961_004175_002445,
  1_007315_000001_000001_000001_000015_000023_000027_000037_000005_000123_000913_001293_001633_003113_005413_026407,
  1_007317_000001_000001_000005_000013_000027_000001_000121_000151_000303_000931_000375_003679_001863_012301_030907,
  1_007331_000001_000003_000001_000009_000031_000009_000049_000203_000177_000937_001503_000933_005867_012533_013621,
  1_007338_000001_000003_000003_000015_000001_000041_000023_000191_000191_000931_000837_003553_002611_004735_018105,
  1_007340_000001_000001_000005_000007_000027_000049_000051_000111_000435_000195_001229_000711_007145_014571_031707,
  1_007346_000001_000001_000007_000007_000003_000041_000059_000203_000291_000903_001727_002757_001463_006287_031535,
  1_007355_000001_000001_000007_000013_000023_000005_000075_000003_000207_000525_000411_002133_002231_000477_007155,
  1_007366_000001_000003_000005_000007_000013_000019_000111_000225_000489_000083_001177_004077_004617_014413_007133,
  1_007383_000001_000003_000001_000007_000009_000059_000003_000113_000379_000803_001289_003347_004127_006669_014867,
  1_007389_000001_000003_000007_000003_000031_000037_000087_000079_000399_000749_000995_001611_003137_012543_031955,
  1_007393_000001_000001_000005_000007_000021_000059_000049_000045_000511_000639_001033_002169_003265_015001_010745,
  1_007396_000001_000001_000005_000001_000025_000019_000023_000203_000011_000883_001031_004087_005059_011321_021675,
  1_007400_000001_000003_000007_000005_000011_000027_000033_000205_000163_000289_000501_003505_001515_001895_015889,
  1_007414_000001_000003_000001_000001_000023_000007_000039_000239_000029_000119_001499_002071_006495_012107_005339,
  1_007417_000001_000003_000001_000001_000023_000029_000055_000181_000327_000905_000427_001033_000427_003687_005367,
  1_007426_000001_000003_000003_000007_000021_000027_000115_000127_000393_000855_001291_002121_000381_009995_029757,
  1_007432_000001_000003_000005_000001_000025_000013_000015_000183_000269_001005_001531_003451_003975_009479_023695,
  1_007452_000001_000003_000007_000007_000019_000031_000111_000097_000033_000179_001343_002069_000977_005043_009129,
  1_007468_000001_000003_000001_000005_000017_000057_000099_000129_000379_000829_000837_001845_003613_007351_019291,
  1_007488_000001_000003_000003_000005_000031_000023_000119_000229_000135_000389_000009_000705_006697_015441_005303,
  1_007491_000001_000001_000001_000011_000025_000031_000105_000095_000005_000931_000789_000375_007543_009957_028627,
  1_007494_000001_000001_000007_000015_000021_000017_000019_000103_000389_000545_001725_002867_004251_003829_006907,
  1_007497_000001_000003_000007_000007_000015_000037_000097_000065_000337_000409_001649_002869_007929_008905_021989,
  1_007515_000001_000003_000005_000003_000011_000015_000069_000029_000353_000207_000233_000411_002047_010303_031655,
  1_007531_000001_000003_000003_000007_000027_000043_000125_000107_000069_000981_000215_001955_003589_000597_012703,
  1_007552_000001_000001_000007_000009_000025_000013_000109_000073_000227_000663_001115_000285_000471_003359_015787,
  1_007562_000001_000003_000007_000005_000001_000045_000007_000079_000441_000149_000701_001457_006595_014829_020865,
  1_007564_000001_000003_000007_000015_000015_000047_000083_000239_000295_000023_001085_000813_001209_003573_002855,
  1_007569_000001_000001_000003_000015_000013_000007_000059_000067_000255_000537_001841_003857_006821_015175_013997,
  1_007582_000001_000003_000001_000001_000009_000057_000059_000021_000021_000041_001693_002805_007953_001389_014105,
  1_007585_000001_000003_000005_000015_000019_000049_000107_000117_000099_000607_000145_000053_001863_009383_012029,
  1_007588_000001_000003_000003_000013_000001_000039_000005_000141_000503_000265_000281_001785_002673_006597_006333,
  1_007592_000001_000001_000005_000003_000003_000019_000003_000181_000169_000269_000955_002399_003157_011053_008563,
  1_007597_000001_000003_000003_000013_000011_000001_000095_000043_000179_000507_000443_000209_003239_014239_021829,
  1_007603_000001_000001_000007_000009_000003_000017_000099_000179_000445_000479_001897_001507_005753_004757_002135,
  1_007610_000001_000003_000003_000001_000009_000051_000029_000013_000295_000291_000927_000085_005707_007447_032319,
  1_007624_000001_000001_000001_000003_000013_000011_000021_000157_000213_000327_001071_000591_002639_015405_006617,
  1_007642_000001_000003_000005_000001_000007_000025_000055_000047_000495_000681_000727_002707_002955_000705_007489,
  1_007647_000001_000001_000003_000009_000017_000003_000073_000067_000465_000367_001473_003195_007825_005299_001817,
  1_007653_000001_000001_000001_000001_000019_000031_000077_000253_000071_000599_001601_000871_002243_006699_013013,
  1_007654_000001_000001_000007_000009_000021_000001_000071_000115_000005_000065_000767_000925_007901_010761_019431,
  1_007666_000001_000003_000001_000007_000023_000031_000031_000015_000105_000391_000585_002995_002635_010607_024951,
  1_007668_000001_000003_000003_000001_000019_000025_000071_000211_000041_000197_000787_000225_006781_000813_010117,
  1_007684_000001_000003_000003_000003_000017_000029_000003_000153_000231_000643_001151_000447_003699_009625_026677,
  1_007705_000001_000001_000005_000009_000001_000025_000071_000021_000395_000297_000557_003841_000233_001877_004569,
  1_007732_000001_000001_000003_000013_000001_000045_000115_000061_000005_000937_000173_002109_002927_009599_009155,
  1_007741_000001_000001_000003_000003_000015_000021_000061_000121_000253_000285_001083_003545_005537_006773_002629,
  1_007749_000001_000003_000003_000015_000013_000063_000033_000077_000049_000849_001795_002771_005481_009833_000603,
  1_007750_000001_000001_000007_000005_000001_000039_000113_000237_000225_001005_001687_002297_003213_002605_014669,
  1_007759_000001_000001_000003_000001_000011_000001_000039_000023_000067_000441_001235_002545_003139_015901_029243,
  1_007764_000001_000003_000001_000003_000015_000049_000039_000057_000311_000345_000525_000223_004923_006311_025275,
  1_007777_000001_000001_000005_000007_000009_000013_000069_000011_000349_000423_001773_001055_001001_009359_017025,
  1_007790_000001_000001_000001_000013_000015_000063_000089_000207_000335_000591_001223_002701_000055_012471_013127,
  1_007817_000001_000001_000003_000005_000015_000019_000083_000067_000407_000113_001961_000779_005803_012417_021751,
  1_007826_000001_000003_000003_000001_000021_000053_000081_000095_000405_000427_001047_002443_004153_005843_022511,
  1_007831_000001_000001_000007_000007_000007_000025_000115_000155_000453_000537_000741_002379_002343_016035_019587,
  1_007859_000001_000003_000003_000011_000027_000021_000111_000121_000503_000437_000803_003399_005303_010163_018199,
  1_007871_000001_000001_000005_000013_000019_000027_000007_000081_000259_000545_000965_000743_004533_008813_021253,
  1_007873_000001_000001_000005_000005_000001_000059_000037_000011_000105_000343_000075_001319_006317_009593_001699,
  1_007876_000001_000003_000001_000009_000013_000009_000115_000131_000387_001023_000253_000693_005191_012777_010565,
  1_007900_000001_000003_000001_000015_000007_000035_000111_000195_000287_000305_000533_001901_003363_010085_030791,
  1_007904_000001_000001_000003_000009_000027_000051_000021_000077_000413_000925_000717_000791_004147_000585_005649,
  1_007913_000001_000003_000003_000005_000025_000059_000079_000249_000185_000567_000071_001997_007373_002327_018637,
  1_007916_000001_000003_000003_000011_000015_000021_000097_000099_000391_000057_001973_000029_007451_002529_025737,
  1_007922_000001_000003_000007_000005_000007_000059_000093_000005_000287_000469_001639_003637_005465_014431_032265,
  1_007946_000001_000001_000003_000011_000003_000001_000071_000075_000427_000299_000811_003697_003529_005433_026957,
  1_007953_000001_000003_000001_000009_000019_000059_000037_000255_000165_001005_000019_002851_004309_000455_009485,
  1_007956_000001_000001_000001_000005_000001_000055_000015_000233_000133_000047_001831_000713_002601_001017_003201,
  1_007963_000001_000001_000005_000005_000021_000055_000127_000069_000377_000041_000025_002295_007595_004733_011615,
  1_007979_000001_000001_000005_000003_000023_000005_000007_000181_000161_000775_001095_002271_006637_014489_006873,
  1_007981_000001_000003_000005_000009_000009_000015_000005_000133_000357_000021_000127_002685_006299_004363_017573,
  1_007984_000001_000003_000003_000009_000013_000039_000051_000223_000201_000401_001839_002461_007633_006039_010445,
  1_007989_000001_000001_000005_000001_000009_000021_000019_000249_000227_000359_000255_002895_004117_002073_027687,
  1_007999_000001_000001_000005_000015_000005_000061_000113_000161_000095_000003_000877_002775_000293_006655_004023,
  1_008001_000001_000003_000007_000001_000007_000055_000073_000039_000295_000403_000985_002315_001667_013525_001453,
  1_008021_000001_000001_000005_000001_000027_000001_000085_000195_000011_000713_001841_003895_003131_002193_017607,
  1_008056_000001_000003_000005_000013_000025_000001_000119_000097_000239_000167_001393_001753_006989_012155_012509,
  1_008080_000001_000001_000007_000015_000031_000021_000041_000255_000425_000445_000165_002097_005627_004971_013207,
  1_008083_000001_000001_000001_000015_000013_000033_000081_000105_000453_000197_000013_001547_007381_008709_015103,
  1_008089_000001_000001_000003_000011_000011_000033_000107_000123_000483_000367_000121_000995_001911_008205_022577,
  1_008090_000001_000001_000001_000009_000009_000043_000071_000049_000273_000431_001705_003313_004259_016291_014345,
  1_008114_000001_000001_000001_000007_000003_000001_000043_000213_000097_000547_001559_001149_002791_003751_000887,
  1_008128_000001_000001_000003_000015_000025_000047_000049_000251_000425_000035_000295_003767_006305_009633_005045,
  1_008133_000001_000003_000003_000001_000005_000055_000091_000245_000027_000981_000331_000555_006553_011017_015289,
  1_008145_000001_000001_000003_000007_000001_000023_000023_000155_000223_000565_001005_003211_003847_007479_003643,
  1_008155_000001_000001_000005_000001_000017_000007_000047_000095_000035_000779_001685_002099_007505_015425_018089,
  1_008161_000001_000003_000003_000007_000003_000063_000083_000151_000211_000147_000611_001171_001681_007687_013423,
  1_008182_000001_000003_000003_000001_000003_000027_000107_000117_000497_000537_000195_003075_002753_001665_019399,
  1_008186_000001_000001_000001_000007_000023_000005_000103_000209_000117_000845_001243_001283_004253_009723_020937,
  1_008191_000001_000003_000001_000001_000005_000049_000007_000013_000419_000125_000287_001599_008161_001275_024661,
  1_008192_000001_000003_000003_000003_000013_000063_000023_000183_000039_000979_001301_002349_000905_015805_030151]

def dirRows15_0_9 : List Nat := [
  1_008195_000001_000001_000003_000009_000017_000011_000097_000189_000189_000511_001779_002077_006891_011623_023949,
  1_008201_000001_000001_000007_000011_000013_000045_000015_000037_000011_000853_000915_001569_006103_010633_003137,
  1_008207_000001_000003_000003_000005_000015_000061_000091_000255_000131_000821_001755_001501_002663_001747_000941,
  1_008210_000001_000001_000003_000007_000019_000019_000065_000095_000499_000239_002023_003185_004649_003861_003767,
  1_008228_000001_000003_000005_000015_000015_000063_000055_000093_000127_000303_000171_001763_004991_009479_009917,
  1_008249_000001_000003_000007_000005_000031_000053_000111_000035_000433_000163_001903_003991_003585_000643_021941,
  1_008252_000001_000003_000001_000009_000027_000039_000067_000089_000487_000349_000587_001723_004311_011321_025785,
  1_008258_000001_000003_000005_000007_000001_000063_000023_000237_000507_000689_001341_000441_001721_000843_020335,
  1_008267_000001_000001_000003_000003_000031_000063_000083_000103_000025_000799_001379_001817_003809_012285_016673,
  1_008270_000001_000001_000005_000003_000025_000029_000099_000193_000021_000549_000033_003109_004135_010071_032355,
  1_008275_000001_000003_000001_000007_000013_000027_000083_000189_000121_000167_000379_001503_007955_013189_000313,
  1_008284_000001_000003_000005_000015_000025_000019_000083_000087_000257_000237_000709_001169_001561_007117_004785,
  1_008293_000001_000001_000001_000007_000009_000055_000021_000005_000439_000367_000403_002311_006243_008349_013127,
  1_008298_000001_000003_000007_000003_000005_000035_000051_000067_000453_000767_000029_003293_006665_011459_002799,
  1_008305_000001_000003_000003_000003_000005_000019_000059_000007_000367_000683_000783_001317_007119_006129_019525,
  1_008317_000001_000001_000005_000005_000005_000019_000061_000067_000381_000291_000875_002179_002481_009325_011253,
  1_008328_000001_000003_000005_000005_000007_000047_000107_000009_000141_000667_001989_000821_003909_001733_010187,
  1_008336_000001_000001_000007_000007_000031_000061_000001_000071_000477_000689_001539_003617_008105_006535_003293,
  1_008345_000001_000001_000005_000005_000023_000009_000103_000197_000241_000249_000297_003607_006217_001673_030103,
  1_008351_000001_000003_000001_000005_000023_000015_000115_000105_000365_000051_000825_002687_000359_016325_015083,
  1_008367_000001_000001_000003_000011_000029_000045_000065_000251_000169_000189_001243_002345_001345_014471_025631,
  1_008379_000001_000001_000005_000009_000007_000063_000081_000167_000309_000539_001169_003949_004193_012047_001491,
  1_008381_000001_000003_000001_000009_000029_000033_000089_000167_000067_000073_001885_000477_005745_013365_006819,
  1_008382_000001_000003_000007_000009_000009_000049_000095_000013_000157_000997_001725_000935_007543_006349_018277,
  1_008393_000001_000001_000005_000005_000011_000059_000097_000017_000303_000469_000093_002761_007395_009021_024299,
  1_008402_000001_000001_000007_000003_000027_000063_000071_000099_000407_000139_000711_002589_004715_005405_003277,
  1_008414_000001_000003_000007_000003_000011_000015_000049_000057_000271_000493_001165_002839_008191_002609_014759,
  1_008417_000001_000001_000001_000007_000021_000015_000071_000245_000413_000473_001321_001165_001027_006983_012867,
  1_008420_000001_000001_000005_000003_000015_000021_000019_000197_000401_000627_002047_002761_005807_005751_028025,
  1_008429_000001_000001_000003_000003_000005_000057_000019_000209_000341_000165_000489_000455_000231_014385_012457,
  1_008435_000001_000003_000003_000011_000013_000063_000079_000129_000017_000315_001881_001069_000177_012013_029567,
  1_008438_000001_000001_000003_000007_000031_000029_000051_000235_000475_000375_000617_000437_006379_008505_023079,
  1_008450_000001_000001_000003_000007_000027_000003_000003_000137_000203_000959_000363_000371_002899_013491_022979,
  1_008452_000001_000003_000003_000003_000009_000001_000057_000007_000363_000537_000713_002417_000509_007747_022135,
  1_008459_000001_000003_000003_000003_000013_000021_000079_000121_000487_000921_000113_000281_002853_014855_019747,
  1_008470_000001_000001_000001_000011_000003_000053_000089_000123_000307_000585_000567_001925_000505_015935_020419,
  1_008486_000001_000001_000003_000003_000015_000045_000077_000197_000499_000683_001405_003573_000981_014135_019763,
  1_008490_000001_000001_000001_000011_000027_000031_000061_000191_000029_000601_000373_002011_006193_003599_004387,
  1_008500_000001_000003_000005_000009_000007_000013_000001_000193_000469_000603_001315_003329_003761_008355_010425,
  1_008524_000001_000001_000003_000009_000029_000061_000103_000017_000117_000251_002029_002963_003763_016117_006627,
  1_008536_000001_000003_000001_000003_000007_000051_000091_000145_000497_000657_000871_003707_005905_010449_014901,
  1_008552_000001_000001_000003_000001_000003_000053_000023_000149_000461_000333_001809_001315_001815_008223_013297,
  1_008558_000001_000001_000001_000007_000015_000031_000003_000047_000443_000829_001305_000893_004191_009681_032661,
  1_008570_000001_000003_000001_000003_000027_000043_000051_000221_000295_000825_000649_002953_006203_008237_020253,
  1_008576_000001_000003_000001_000003_000009_000035_000041_000195_000249_000225_000387_003789_001499_002559_028413,
  1_008582_000001_000001_000005_000015_000019_000029_000013_000115_000333_000787_000787_000723_002987_006227_010865,
  1_008594_000001_000003_000005_000013_000005_000059_000005_000251_000079_000387_000011_003167_006619_013317_018979,
  1_008606_000001_000001_000007_000011_000031_000051_000043_000001_000189_000519_001945_002129_004365_014059_003139,
  1_008619_000001_000001_000007_000005_000031_000009_000043_000019_000151_000533_001061_003849_006871_006941_014935,
  1_008621_000001_000003_000007_000005_000019_000057_000007_000129_000025_000353_000017_001739_006513_000399_028835,
  1_008624_000001_000003_000005_000015_000025_000015_000037_000125_000039_000239_000271_000065_002189_010449_011815,
  1_008633_000001_000003_000007_000015_000019_000057_000047_000245_000509_000945_000385_003987_003585_014711_009655,
  1_008641_000001_000001_000003_000013_000021_000031_000013_000081_000009_000489_001321_000063_001363_002219_019541,
  1_008653_000001_000001_000005_000007_000003_000057_000025_000147_000023_000553_000889_000307_006429_015807_012861,
  1_008654_000001_000001_000003_000015_000029_000021_000099_000237_000151_000881_000675_003625_001159_011759_021347,
  1_008662_000001_000001_000007_000001_000009_000013_000111_000239_000235_000609_001569_003271_002837_013807_007301,
  1_008675_000001_000003_000001_000015_000007_000059_000027_000081_000129_000009_000647_003595_001877_001067_001859,
  1_008689_000001_000003_000007_000001_000003_000025_000119_000057_000145_000441_001045_000789_000215_001265_009369,
  1_008695_000001_000003_000007_000003_000017_000025_000087_000211_000441_000229_000223_002795_007241_007007_020575,
  1_008702_000001_000001_000003_000001_000013_000001_000055_000227_000389_000141_001097_002487_007603_004161_005025,
  1_008706_000001_000001_000003_000005_000015_000029_000029_000145_000233_000209_000891_000089_008097_002897_026685,
  1_008720_000001_000001_000003_000001_000029_000053_000019_000095_000161_000359_000435_003313_004955_007965_021015,
  1_008729_000001_000003_000005_000009_000019_000003_000109_000077_000029_000937_001663_000125_002453_001069_020639,
  1_008739_000001_000003_000007_000013_000005_000023_000043_000231_000347_000591_001963_002491_004045_016029_008149,
  1_008741_000001_000001_000005_000001_000013_000003_000075_000211_000419_000929_000901_003453_008121_000799_008897,
  1_008751_000001_000001_000007_000015_000011_000011_000123_000111_000309_000415_001071_000975_002009_012945_019617,
  1_008759_000001_000001_000001_000007_000031_000035_000081_000255_000089_000643_000451_000513_000497_011751_024215,
  1_008766_000001_000003_000005_000005_000025_000017_000005_000165_000139_000929_001927_001353_007427_009719_017087,
  1_008777_000001_000003_000005_000001_000021_000055_000079_000085_000333_000847_001305_000851_005057_008361_018269,
  1_008783_000001_000003_000007_000015_000027_000017_000055_000125_000395_000223_000271_000781_001639_010569_011143,
  1_008786_000001_000001_000007_000009_000007_000033_000127_000085_000209_000339_000483_000241_002523_014951_006855,
  1_008795_000001_000001_000003_000009_000005_000019_000009_000183_000435_000343_001105_003139_007617_001311_000267,
  1_008802_000001_000001_000005_000001_000015_000053_000011_000063_000113_000241_000855_003123_004777_003495_023345,
  1_008814_000001_000003_000001_000005_000019_000029_000119_000205_000167_000683_000289_001629_004977_008981_006867,
  1_008821_000001_000003_000001_000001_000031_000063_000095_000159_000267_000231_000863_003385_005315_007267_013757,
  1_008828_000001_000003_000005_000011_000019_000021_000053_000041_000125_000179_000533_001279_003759_007073_013905,
  1_008831_000001_000003_000005_000009_000017_000007_000027_000067_000097_000809_001423_002743_002859_016121_000329,
  1_008837_000001_000003_000001_000015_000001_000041_000059_000155_000509_000051_001827_003739_003879_013369_030821,
  1_008842_000001_000003_000003_000007_000021_000031_000007_000013_000347_000919_001225_000497_005051_003769_020211,
  1_008855_000001_000003_000007_000013_000031_000009_000127_000195_000123_000387_000003_003593_006623_009827_029319,
  1_008856_000001_000001_000003_000009_000007_000027_000095_000211_000287_000189_001683_001999_007641_014983_004699,
  1_008868_000001_000001_000005_000003_000007_000021_000029_000189_000101_000423_000885_003275_006569_011023_022265,
  1_008877_000001_000003_000005_000003_000009_000033_000079_000075_000327_000975_000287_003025_002157_007301_024447,
  1_008890_000001_000003_000003_000015_000031_000027_000063_000001_000071_000119_001151_000517_006131_011055_000179,
  1_008892_000001_000003_000007_000011_000023_000015_000101_000247_000349_000735_000673_000997_006451_000229_032103,
  1_008900_000001_000003_000005_000015_000007_000001_000051_000135_000207_000741_001831_001235_004747_011915_022009,
  1_008909_000001_000003_000001_000013_000009_000031_000019_000221_000465_000681_000627_002595_005617_014201_030355,
  1_008912_000001_000001_000003_000001_000013_000049_000055_000155_000011_000885_001275_003591_002217_006659_030885,
  1_008921_000001_000001_000007_000011_000027_000057_000093_000095_000243_000063_001405_002049_007689_015943_018503,
  1_008922_000001_000001_000007_000007_000005_000011_000047_000189_000467_000631_001665_002717_004285_002087_001435,
  1_008927_000001_000001_000003_000011_000007_000027_000127_000003_000231_000757_000435_002545_003537_009127_019915,
  1_008943_000001_000001_000005_000013_000005_000029_000085_000127_000339_000875_000497_001573_006553_011983_018029,
  1_008948_000001_000003_000001_000001_000021_000003_000015_000091_000231_000683_001529_002651_004147_013437_023861,
  1_008951_000001_000003_000001_000007_000027_000017_000019_000179_000243_000223_001037_001501_005935_002259_025185,
  1_008958_000001_000001_000003_000015_000011_000019_000127_000027_000483_000219_000583_002555_000531_003451_017875,
  1_008984_000001_000001_000001_000013_000031_000039_000089_000149_000363_000741_001355_004067_003171_006783_001799,
  1_008994_000001_000001_000003_000011_000025_000051_000045_000235_000379_000123_001701_000725_001991_007471_009833,
  1_009000_000001_000001_000005_000013_000015_000047_000013_000201_000263_000057_000375_002963_007475_015929_013775,
  1_009013_000001_000001_000003_000001_000029_000029_000011_000161_000345_000253_000097_000255_007267_002379_003933,
  1_009018_000001_000003_000001_000015_000003_000047_000011_000069_000347_000747_000795_002401_003367_002383_006125]

def dirRows15_0_10 : List Nat := [
  1_009020_000001_000001_000007_000003_000001_000049_000101_000047_000071_000761_001503_002619_000191_008895_000873,
  1_009031_000001_000003_000003_000005_000025_000041_000093_000085_000427_000109_001675_002409_004317_009233_030283,
  1_009035_000001_000001_000003_000009_000011_000003_000067_000159_000425_000751_000887_001415_000403_015977_010739,
  1_009045_000001_000001_000005_000013_000009_000001_000009_000103_000481_000601_000931_001957_005763_007095_027141,
  1_009052_000001_000001_000003_000015_000029_000013_000043_000033_000297_000269_001041_001411_003461_012043_010045,
  1_009056_000001_000003_000005_000003_000003_000003_000005_000007_000185_000753_000133_001561_005595_013777_025795,
  1_009059_000001_000003_000005_000005_000001_000019_000029_000145_000163_000149_000619_002603_007757_010035_010189,
  1_009066_000001_000003_000007_000015_000027_000015_000111_000173_000135_000117_000157_002601_007919_012111_022795,
  1_009076_000001_000003_000001_000001_000029_000027_000065_000031_000101_000715_000289_003643_002335_006789_023397,
  1_009089_000001_000003_000001_000003_000011_000045_000071_000109_000321_000423_001695_000169_003075_012423_011391,
  1_009129_000001_000001_000003_000009_000013_000051_000035_000121_000203_000279_000433_002725_007951_002105_027333,
  1_009132_000001_000001_000001_000015_000023_000031_000025_000105_000501_000441_001511_003133_002811_010595_021779,
  1_009147_000001_000001_000005_000013_000007_000001_000097_000193_000121_000993_001347_001903_001883_006583_024535,
  1_009164_000001_000001_000007_000009_000007_000029_000017_000041_000101_000447_001289_000387_001891_002723_026091,
  1_009167_000001_000001_000003_000003_000003_000053_000081_000081_000177_000165_000195_003413_008177_003817_008453,
  1_009185_000001_000003_000007_000015_000015_000031_000023_000031_000337_000439_001773_000063_005351_005491_001767,
  1_009195_000001_000003_000001_000011_000005_000015_000023_000075_000437_000553_000429_002705_003625_013851_019865,
  1_009197_000001_000003_000003_000009_000013_000015_000033_000235_000215_000415_001737_001409_002101_014623_014717,
  1_009210_000001_000003_000007_000007_000013_000051_000101_000217_000175_000813_001639_004009_001625_004991_017525,
  1_009217_000001_000001_000005_000013_000023_000033_000029_000175_000039_000673_000557_003239_005129_011049_027227,
  1_009229_000001_000003_000007_000013_000001_000037_000033_000139_000493_000891_001883_002525_005741_015795_005875,
  1_009248_000001_000003_000001_000015_000015_000027_000127_000111_000147_000363_000725_003077_004341_009131_024635,
  1_009254_000001_000001_000007_000003_000017_000025_000059_000135_000177_000635_000073_003455_003083_006009_013033,
  1_009263_000001_000001_000001_000005_000015_000053_000093_000161_000215_000459_001087_000179_002235_008885_015309,
  1_009266_000001_000001_000007_000013_000007_000017_000075_000173_000449_000855_000103_002739_003421_011811_018805,
  1_009268_000001_000001_000007_000009_000005_000011_000053_000075_000247_000249_001201_000953_002455_004589_006027,
  1_009290_000001_000001_000005_000013_000027_000051_000119_000039_000137_000011_001435_003773_003889_006081_011829,
  1_009310_000001_000001_000005_000005_000005_000035_000001_000197_000501_000185_001039_001563_006421_014373_025655,
  1_009316_000001_000001_000003_000013_000031_000055_000115_000183_000483_000655_001351_003203_000725_003299_022579,
  1_009338_000001_000003_000005_000011_000031_000031_000083_000059_000395_000021_001881_002821_002251_011781_026265,
  1_009340_000001_000003_000007_000013_000021_000019_000103_000021_000403_000443_001951_000055_000985_015983_015087,
  1_009343_000001_000001_000005_000015_000029_000011_000051_000053_000255_000183_001475_001491_000259_000387_010303,
  1_009344_000001_000003_000005_000007_000021_000037_000045_000039_000479_000637_001325_003753_003319_007403_031759,
  1_009350_000001_000001_000003_000005_000007_000043_000089_000053_000269_000187_000995_000141_000119_008139_029699,
  1_009354_000001_000001_000001_000005_000001_000053_000003_000023_000379_000223_001889_004035_001437_012425_009051,
  1_009359_000001_000003_000001_000013_000003_000031_000061_000043_000249_000449_000901_001921_003495_008599_005263,
  1_009361_000001_000001_000003_000005_000003_000025_000035_000133_000025_000597_000915_003663_005147_011831_024269,
  1_009364_000001_000001_000001_000009_000021_000027_000093_000093_000217_000299_001881_003647_004825_007989_024121,
  1_009368_000001_000003_000001_000015_000005_000015_000049_000129_000315_000631_002037_001567_004043_015589_030905,
  1_009371_000001_000003_000003_000007_000025_000005_000123_000051_000047_000471_001563_003947_007975_003681_009611,
  1_009373_000001_000003_000007_000015_000001_000017_000073_000245_000465_000095_000095_001159_001319_004675_008841,
  1_009389_000001_000001_000003_000015_000005_000051_000035_000071_000423_000651_000753_000173_002131_015799_029601,
  1_009390_000001_000001_000001_000001_000003_000053_000083_000187_000445_000827_001549_000979_005363_001701_002149,
  1_009409_000001_000001_000007_000009_000003_000015_000065_000161_000037_000233_000771_003749_000727_006857_017175,
  1_009443_000001_000001_000007_000007_000027_000029_000107_000247_000249_000353_000773_003677_007273_005419_029397,
  1_009445_000001_000003_000003_000007_000031_000049_000087_000159_000145_000497_001715_002115_005035_006431_007245,
  1_009446_000001_000003_000003_000005_000007_000031_000051_000117_000101_000617_000557_002551_006589_013295_031975,
  1_009452_000001_000001_000003_000003_000015_000027_000125_000163_000169_000893_001771_000025_005787_010267_010297,
  1_009490_000001_000001_000001_000005_000009_000047_000085_000065_000289_000783_001105_004035_004111_002589_024575,
  1_009492_000001_000003_000003_000013_000023_000033_000007_000049_000301_000531_001713_002755_005543_008153_024099,
  1_009495_000001_000001_000005_000009_000007_000039_000101_000067_000417_000923_000757_001537_005553_012233_020881,
  1_009508_000001_000001_000005_000001_000019_000007_000025_000123_000125_000183_000573_003317_006867_000871_017631,
  1_009523_000001_000001_000003_000015_000019_000013_000117_000041_000129_000715_001525_002257_002179_010807_023271,
  1_009543_000001_000003_000001_000005_000025_000053_000019_000169_000289_000569_001135_001967_007001_015883_015113,
  1_009558_000001_000003_000007_000015_000007_000037_000127_000147_000415_000313_001541_001889_003763_016199_012681,
  1_009567_000001_000001_000003_000009_000001_000035_000095_000137_000237_000951_000899_003177_006073_010655_031687,
  1_009580_000001_000001_000005_000005_000029_000057_000045_000253_000297_000529_001553_000467_008035_015675_021691,
  1_009585_000001_000003_000007_000015_000025_000041_000059_000081_000087_000985_001001_002369_000661_007551_011829,
  1_009591_000001_000001_000007_000009_000027_000021_000007_000233_000309_000067_000701_002737_004261_002467_015691,
  1_009611_000001_000003_000007_000001_000019_000055_000047_000155_000333_000101_000517_001991_004619_010435_027241,
  1_009613_000001_000001_000007_000003_000023_000035_000007_000125_000157_000537_000933_003281_004975_008969_027581,
  1_009614_000001_000001_000003_000007_000019_000053_000081_000103_000461_000435_000777_000335_005261_012249_009695,
  1_009621_000001_000003_000001_000007_000019_000009_000075_000245_000355_000037_001855_001339_003107_007251_016543,
  1_009631_000001_000001_000001_000003_000005_000035_000039_000223_000113_000423_001423_000713_006113_000349_024147,
  1_009642_000001_000003_000001_000001_000015_000031_000011_000075_000499_000345_001253_002629_002551_007483_025395,
  1_009656_000001_000001_000003_000011_000025_000025_000003_000211_000185_000045_001865_001805_003303_011091_000529,
  1_009661_000001_000003_000001_000001_000009_000021_000007_000165_000107_000641_001083_002805_002099_005855_018477,
  1_009667_000001_000003_000005_000003_000009_000021_000077_000103_000505_000277_000335_000797_003869_002957_001979,
  1_009694_000001_000003_000005_000015_000031_000023_000077_000247_000303_000891_001261_003233_003495_013111_013185,
  1_009715_000001_000003_000005_000011_000011_000035_000049_000229_000149_000931_000881_000775_002949_003141_029157,
  1_009722_000001_000001_000003_000005_000019_000057_000023_000095_000347_000221_000195_003561_001481_002063_003979,
  1_009738_000001_000003_000005_000003_000013_000001_000023_000173_000431_000029_000421_003235_002751_004447_028283,
  1_009745_000001_000001_000005_000013_000023_000003_000001_000009_000327_000855_001251_002997_006129_004223_011555,
  1_009758_000001_000003_000007_000013_000029_000021_000037_000229_000217_000353_001239_003955_000491_012183_014777,
  1_009764_000001_000001_000005_000005_000001_000033_000103_000187_000183_000939_001873_002633_006143_015405_017353,
  1_009782_000001_000001_000001_000009_000021_000027_000071_000129_000499_000279_001181_004053_002485_001961_030603,
  1_009791_000001_000001_000003_000015_000021_000037_000045_000201_000221_000187_000727_001241_006171_001383_022277,
  1_009793_000001_000003_000007_000005_000021_000017_000067_000177_000323_000601_000633_000865_006131_010329_008689,
  1_009794_000001_000003_000005_000009_000015_000045_000071_000043_000359_000651_000103_000403_003249_011769_006567,
  1_009805_000001_000003_000003_000013_000003_000023_000101_000145_000367_000999_001489_003673_002959_010855_016029,
  1_009808_000001_000003_000007_000003_000013_000043_000123_000087_000055_001015_000141_002917_006567_016025_025555,
  1_009811_000001_000003_000001_000003_000017_000007_000021_000161_000041_000889_001315_001897_000639_015451_003049,
  1_009817_000001_000003_000005_000015_000027_000033_000055_000017_000081_000431_000325_000909_003547_010121_017815,
  1_009824_000001_000001_000003_000001_000015_000037_000043_000137_000203_000191_001129_001585_000435_003177_000769,
  1_009836_000001_000003_000007_000011_000021_000023_000125_000041_000017_000951_000465_003691_003465_013247_013779,
  1_009851_000001_000003_000003_000001_000031_000023_000043_000101_000405_000739_001061_002955_005643_016137_008763,
  1_009853_000001_000001_000005_000001_000019_000033_000099_000109_000203_000065_000395_002775_001373_002557_005875,
  1_009854_000001_000003_000003_000003_000027_000051_000079_000063_000331_000365_001071_001661_004549_008561_001719,
  1_009877_000001_000003_000003_000009_000003_000017_000053_000161_000141_000489_001325_001709_001381_005093_000171,
  1_009881_000001_000001_000007_000015_000009_000003_000095_000237_000197_000949_000007_001837_000729_010111_006637,
  1_009923_000001_000001_000003_000003_000019_000031_000057_000173_000483_000861_001001_001919_003389_011777_020693,
  1_009935_000001_000003_000001_000009_000027_000013_000113_000177_000075_000925_000949_000119_004759_007775_023033,
  1_009937_000001_000001_000007_000015_000023_000015_000065_000061_000137_000653_001843_000323_000379_015157_029885,
  1_009954_000001_000003_000003_000007_000029_000003_000011_000205_000347_000745_001477_003929_005749_004735_029435,
  1_009959_000001_000003_000005_000009_000001_000011_000111_000015_000007_000069_000045_003607_001099_009203_021301,
  1_009963_000001_000003_000003_000003_000023_000003_000083_000173_000073_000485_000681_001867_003839_011823_013339,
  1_009968_000001_000001_000003_000011_000031_000043_000107_000127_000465_000389_001595_000427_001571_005885_029569,
  1_009973_000001_000001_000007_000009_000027_000025_000117_000027_000287_000391_000279_003247_000035_012973_005483,
  1_009974_000001_000003_000007_000011_000019_000055_000045_000127_000245_000945_000305_003907_002455_003163_000031,
  1_009980_000001_000001_000007_000011_000015_000017_000065_000015_000037_000207_001447_003027_002281_006557_016717]

def dirRows15_0_11 : List Nat := [
  1_009983_000001_000001_000001_000013_000005_000027_000033_000213_000029_000603_001171_003235_002255_002017_030999,
  1_009985_000001_000003_000001_000005_000011_000001_000073_000233_000069_000125_000397_000297_003337_006191_031055,
  1_010003_000001_000001_000001_000015_000001_000001_000065_000145_000201_000917_001891_002999_004069_010413_015819,
  1_010010_000001_000003_000005_000013_000015_000051_000115_000167_000311_000375_001069_002595_003337_000753_011903,
  1_010034_000001_000001_000003_000001_000001_000023_000069_000125_000147_000915_001945_000411_000979_013863_030443,
  1_010040_000001_000003_000001_000011_000005_000001_000093_000023_000135_000093_001689_000023_003519_004491_024673,
  1_010063_000001_000001_000007_000003_000011_000059_000093_000153_000487_000475_001191_001455_005963_008259_018811,
  1_010077_000001_000001_000003_000001_000013_000015_000055_000071_000433_000033_000491_001835_005695_010509_000347,
  1_010081_000001_000001_000001_000015_000019_000001_000023_000047_000235_000101_001057_000901_005477_007079_030885,
  1_010082_000001_000001_000005_000013_000011_000043_000119_000077_000441_000121_000783_000827_001757_012751_031593,
  1_010084_000001_000003_000007_000011_000019_000017_000037_000225_000329_000231_000515_001541_007371_006355_010905,
  1_010088_000001_000001_000005_000013_000007_000011_000035_000215_000345_000577_000147_002803_003291_004631_005329,
  1_010091_000001_000001_000003_000009_000021_000055_000113_000251_000025_000221_001445_003385_001589_004109_029897,
  1_010105_000001_000001_000005_000007_000009_000045_000005_000033_000331_000285_001101_003131_002713_005653_003823,
  1_010111_000001_000003_000007_000007_000005_000039_000043_000167_000481_000629_000777_001827_004653_000403_004781,
  1_010118_000001_000003_000003_000007_000031_000033_000031_000159_000313_000673_001425_000663_005819_001297_026627,
  1_010127_000001_000003_000003_000001_000019_000061_000117_000093_000373_000491_001031_000757_004185_000771_007265,
  1_010135_000001_000001_000007_000009_000003_000045_000065_000223_000437_000041_001139_002733_005963_002709_025429,
  1_010169_000001_000003_000005_000011_000021_000027_000031_000127_000255_000761_001865_001319_006583_009235_010717,
  1_010172_000001_000001_000001_000005_000021_000001_000063_000043_000413_000557_000567_002893_008017_002307_029525,
  1_010183_000001_000001_000007_000003_000031_000001_000015_000235_000215_000395_001971_000469_005275_000431_005349,
  1_010190_000001_000001_000001_000013_000025_000059_000071_000245_000389_000279_001293_000089_006551_010285_014495,
  1_010192_000001_000001_000005_000005_000009_000063_000017_000229_000425_000939_000877_003689_007229_006707_030771,
  1_010211_000001_000003_000007_000007_000011_000029_000043_000041_000025_000237_001585_003735_002617_007541_026243,
  1_010218_000001_000001_000007_000009_000021_000005_000069_000231_000361_000039_001695_003043_002973_005487_012857,
  1_010228_000001_000001_000005_000003_000017_000063_000091_000217_000407_000133_001373_004021_001737_010043_004561,
  1_010235_000001_000003_000007_000009_000031_000013_000101_000231_000175_000457_000089_002167_002725_008505_000375,
  1_010242_000001_000001_000003_000015_000031_000011_000027_000211_000347_000291_001881_003091_003307_005117_013341,
  1_010244_000001_000003_000005_000005_000013_000025_000005_000197_000237_000135_000635_001175_005085_014737_010807,
  1_010271_000001_000003_000003_000009_000007_000063_000107_000127_000147_000477_001813_002619_008089_002651_026549,
  1_010278_000001_000001_000005_000011_000015_000045_000027_000133_000045_000621_000707_002679_005929_000019_009599,
  1_010296_000001_000003_000007_000009_000021_000037_000041_000255_000069_001009_001999_000367_006177_010017_003549,
  1_010299_000001_000001_000001_000015_000019_000055_000073_000189_000423_000983_001811_002551_004765_012077_018205,
  1_010307_000001_000001_000005_000007_000017_000013_000025_000225_000463_000471_000631_001811_005797_003235_032253,
  1_010309_000001_000003_000007_000001_000029_000007_000123_000187_000331_000735_001757_001115_002077_015725_002183,
  1_010310_000001_000003_000007_000009_000017_000061_000111_000093_000021_001003_001905_003719_002111_011845_006427,
  1_010314_000001_000003_000007_000007_000017_000021_000051_000059_000115_000723_002039_002833_005969_005737_018407,
  1_010316_000001_000003_000003_000013_000009_000047_000095_000233_000013_000281_001049_000619_000405_016205_020097,
  1_010321_000001_000003_000007_000013_000009_000041_000011_000171_000453_000713_000587_001669_002489_010277_018599,
  1_010328_000001_000003_000003_000013_000021_000041_000123_000173_000511_000399_000859_001515_005773_012535_026289,
  1_010338_000001_000001_000007_000015_000011_000003_000113_000111_000073_000007_001191_002573_007713_000465_027615,
  1_010343_000001_000001_000007_000015_000005_000005_000039_000011_000489_000013_001041_001639_007879_011899_006899,
  1_010344_000001_000001_000005_000009_000027_000031_000015_000237_000401_000795_001675_002361_007333_012507_014627,
  1_010347_000001_000003_000001_000007_000021_000053_000031_000081_000189_000683_001283_000419_007585_009207_015053,
  1_010352_000001_000003_000005_000011_000021_000001_000049_000251_000403_000489_001235_000429_004855_004081_017575,
  1_010364_000001_000003_000001_000015_000029_000033_000077_000053_000105_000731_000749_002677_003967_007967_018723,
  1_010373_000001_000003_000003_000011_000009_000047_000011_000095_000137_000923_000599_001585_001969_009625_019171,
  1_010386_000001_000001_000001_000005_000007_000007_000085_000049_000339_000883_000261_002125_003831_009797_016395,
  1_010391_000001_000003_000003_000003_000005_000009_000033_000099_000075_000889_000101_002099_006635_011511_021573,
  1_010398_000001_000001_000005_000011_000001_000011_000079_000049_000007_000131_000471_001235_003287_014777_012053,
  1_010408_000001_000001_000005_000015_000009_000009_000083_000015_000021_000899_001785_002349_003471_006723_001405,
  1_010413_000001_000003_000005_000011_000001_000007_000121_000223_000509_000859_001037_000491_005529_000481_017029,
  1_010422_000001_000001_000007_000005_000017_000035_000091_000171_000113_000065_000423_002371_005105_012827_031087,
  1_010445_000001_000001_000003_000003_000021_000047_000055_000011_000159_000051_000263_002113_000661_009147_028929,
  1_010460_000001_000001_000001_000009_000019_000007_000043_000223_000207_000787_000543_002141_004247_007369_029031,
  1_010463_000001_000001_000007_000011_000011_000051_000121_000009_000211_000905_000687_000889_001827_013395_003507,
  1_010464_000001_000003_000001_000007_000015_000023_000005_000139_000469_000569_000033_003477_005391_013665_017011,
  1_010474_000001_000001_000001_000015_000029_000029_000029_000201_000063_001019_000097_001671_000009_004617_019833,
  1_010476_000001_000001_000005_000015_000025_000005_000067_000225_000189_000919_001471_001451_005017_016189_031555,
  1_010487_000001_000003_000005_000005_000015_000051_000089_000221_000149_000863_000043_002381_001767_008037_005319,
  1_010494_000001_000003_000003_000001_000015_000017_000005_000077_000069_000027_001883_000063_005987_001497_003723,
  1_010499_000001_000003_000007_000011_000007_000005_000113_000229_000123_000709_001531_000641_006655_014923_022947,
  1_010506_000001_000003_000001_000013_000021_000015_000045_000175_000081_000499_001113_000587_007573_011689_015651,
  1_010513_000001_000003_000001_000001_000029_000043_000101_000037_000131_000757_000465_000743_002737_008063_023967,
  1_010516_000001_000001_000007_000013_000009_000021_000039_000177_000051_000691_002047_001519_006137_005271_008703,
  1_010523_000001_000001_000003_000003_000005_000055_000063_000021_000003_000317_000461_000527_002673_016211_006721,
  1_010539_000001_000003_000005_000005_000005_000047_000007_000241_000387_000589_000323_000203_007241_014761_013287,
  1_010549_000001_000003_000005_000003_000023_000063_000055_000061_000231_001023_001315_001181_000243_007389_025639,
  1_010550_000001_000001_000007_000013_000031_000043_000041_000081_000127_000887_001513_004055_001361_002443_006963,
  1_010567_000001_000001_000001_000005_000007_000043_000043_000033_000323_000911_001373_003053_006503_000513_006457,
  1_010576_000001_000001_000007_000011_000025_000061_000021_000149_000205_000349_001433_001587_000149_007275_005465,
  1_010625_000001_000003_000005_000005_000011_000009_000031_000217_000119_000511_000209_003325_002023_002877_000463,
  1_010635_000001_000003_000005_000015_000021_000047_000089_000041_000347_000849_001375_003311_000807_011443_027643,
  1_010643_000001_000001_000005_000007_000029_000043_000123_000191_000321_000373_000447_002145_001221_002071_012689,
  1_010656_000001_000003_000005_000015_000001_000021_000043_000141_000461_000779_001109_002915_000909_008585_019859,
  1_010671_000001_000003_000003_000011_000005_000017_000057_000013_000393_000661_001761_002455_000043_008593_020505,
  1_010676_000001_000003_000005_000001_000031_000047_000065_000249_000077_000513_000851_002381_003447_000693_007729,
  1_010683_000001_000003_000005_000015_000031_000019_000083_000047_000369_000697_001815_000819_007573_009245_008013,
  1_010685_000001_000003_000005_000005_000011_000025_000027_000151_000107_000339_000299_003869_003393_005661_002947,
  1_010688_000001_000001_000003_000001_000001_000059_000085_000057_000175_000465_000239_003115_007157_007035_011463,
  1_010697_000001_000001_000007_000005_000031_000041_000053_000149_000121_000743_000189_000159_005289_002945_001179,
  1_010700_000001_000003_000003_000015_000023_000051_000083_000025_000159_000163_000061_000713_004529_005253_001603,
  1_010712_000001_000003_000005_000011_000007_000029_000015_000177_000507_000695_001305_001863_007525_003063_027433,
  1_010724_000001_000001_000003_000011_000005_000041_000115_000227_000409_000951_000591_004003_007717_004369_015637,
  1_010728_000001_000001_000007_000011_000023_000055_000071_000135_000051_000411_002003_002375_006823_001711_004443,
  1_010734_000001_000003_000001_000003_000031_000047_000031_000233_000243_000003_000313_001649_006955_013679_032327,
  1_010739_000001_000001_000003_000011_000029_000009_000001_000079_000247_000677_000685_003107_005987_009675_029523,
  1_010762_000001_000001_000001_000007_000025_000031_000039_000241_000483_000839_001143_000437_002317_002437_000173,
  1_010772_000001_000001_000005_000001_000017_000019_000083_000057_000039_000479_000715_001911_001091_010937_022145,
  1_010781_000001_000001_000007_000001_000027_000045_000035_000055_000477_000719_000217_003349_007717_006853_009699,
  1_010800_000001_000003_000001_000011_000009_000039_000025_000223_000303_000713_000151_002611_004629_005855_031729,
  1_010805_000001_000001_000001_000011_000013_000035_000053_000039_000167_000779_001673_001221_006281_015113_032027,
  1_010827_000001_000001_000005_000009_000019_000063_000089_000113_000199_000107_001015_000835_002879_009499_025597,
  1_010830_000001_000001_000007_000003_000019_000037_000015_000023_000449_000641_001811_003407_006775_006283_031157,
  1_010837_000001_000001_000003_000001_000019_000015_000031_000099_000511_000897_001693_002093_000955_015897_026693,
  1_010841_000001_000001_000005_000001_000005_000015_000047_000019_000441_000541_001621_003877_006407_015991_001931,
  1_010847_000001_000003_000005_000009_000021_000061_000015_000077_000265_000351_000879_003835_006555_002349_023235,
  1_010848_000001_000001_000005_000011_000025_000037_000029_000181_000341_000641_001213_001319_006359_006231_032573,
  1_010857_000001_000001_000001_000007_000001_000037_000087_000123_000033_000913_000111_002613_004895_012595_026633,
  1_010866_000001_000003_000005_000003_000027_000011_000045_000089_000183_000241_001355_000783_003343_000239_008643]

def dirRows15_0_12 : List Nat := [
  1_010868_000001_000003_000007_000007_000009_000035_000067_000187_000233_000577_001445_003063_006039_016233_001453,
  1_010872_000001_000001_000003_000013_000027_000011_000023_000015_000095_000063_001931_000911_008149_006833_003051,
  1_010887_000001_000003_000003_000005_000029_000049_000125_000117_000047_000143_000423_003215_003605_003677_017155,
  1_010899_000001_000003_000001_000001_000031_000001_000123_000195_000083_000893_001947_000339_002927_007183_015443,
  1_010901_000001_000001_000007_000013_000031_000015_000091_000207_000039_000275_000439_002617_003093_011041_024997,
  1_010915_000001_000001_000005_000003_000003_000041_000013_000067_000361_000497_000025_003807_003551_009681_021043,
  1_010924_000001_000003_000003_000003_000011_000027_000103_000059_000427_000327_001705_000029_008127_001641_020847,
  1_010929_000001_000003_000007_000005_000003_000037_000081_000137_000225_000101_000187_003067_002491_012687_016227,
  1_010942_000001_000003_000005_000015_000015_000033_000069_000223_000225_000771_001917_002293_002889_012083_023971,
  1_010971_000001_000001_000003_000005_000011_000009_000121_000081_000203_000425_001189_002011_003041_003247_000739,
  1_010992_000001_000003_000001_000001_000013_000009_000039_000169_000437_000571_001481_003355_003895_008975_031031,
  1_010995_000001_000003_000001_000011_000001_000043_000035_000035_000293_000011_000657_001415_005021_014463_017945,
  1_011002_000001_000001_000005_000005_000013_000047_000091_000015_000159_000023_000971_003575_000757_013477_031757,
  1_011010_000001_000001_000007_000001_000005_000063_000069_000027_000071_000129_000123_003767_000089_007865_001189,
  1_011027_000001_000003_000003_000005_000023_000001_000083_000003_000487_000491_000217_002583_003889_015009_009227,
  1_011029_000001_000003_000005_000015_000025_000001_000073_000107_000245_000191_001449_000571_001403_006953_017457,
  1_011045_000001_000003_000003_000003_000027_000019_000025_000105_000207_000857_001161_003657_002107_007955_000517,
  1_011057_000001_000003_000003_000009_000021_000029_000005_000103_000219_000035_000003_001635_004815_015797_029839,
  1_011070_000001_000001_000007_000007_000003_000063_000075_000077_000013_000057_000603_002333_007761_014397_010875,
  1_011092_000001_000003_000007_000013_000003_000011_000005_000255_000001_000947_001695_001927_007447_007407_020797,
  1_011099_000001_000001_000005_000001_000001_000021_000105_000073_000429_000973_001801_003943_006161_001309_003359,
  1_011106_000001_000001_000003_000015_000027_000009_000009_000129_000117_000545_000009_001983_006351_010925_027337,
  1_011115_000001_000003_000003_000005_000005_000005_000013_000155_000503_000875_001243_002259_003445_011953_006517,
  1_011120_000001_000001_000007_000003_000029_000021_000121_000147_000413_000423_001887_002429_002765_016335_003071,
  1_011126_000001_000001_000007_000009_000005_000053_000041_000137_000463_000583_001627_001731_006675_003703_008177,
  1_011153_000001_000003_000005_000011_000031_000029_000067_000159_000425_000025_001457_000139_005019_000701_007357,
  1_011190_000001_000003_000001_000005_000025_000015_000123_000123_000245_000859_000249_002175_002137_005765_004873,
  1_011199_000001_000001_000003_000005_000023_000001_000111_000111_000111_000469_001473_001777_003579_013503_002569,
  1_011222_000001_000001_000007_000003_000017_000023_000051_000023_000499_000135_000713_003317_000807_009589_011349,
  1_011225_000001_000001_000001_000015_000009_000051_000075_000159_000359_000773_001521_002913_005901_003047_014649,
  1_011226_000001_000001_000003_000001_000013_000061_000117_000195_000049_000267_000057_001769_003621_009415_029443,
  1_011231_000001_000003_000007_000011_000003_000025_000033_000031_000315_000191_000359_003399_002481_013831_020205,
  1_011244_000001_000003_000003_000005_000031_000043_000035_000125_000291_000051_001469_003857_001707_002641_032137,
  1_011259_000001_000003_000005_000001_000025_000011_000113_000137_000211_000159_001667_000939_006439_005337_032059,
  1_011261_000001_000003_000003_000011_000031_000061_000099_000049_000383_000343_000395_000051_006931_016039_005901,
  1_011270_000001_000001_000003_000005_000009_000063_000063_000049_000405_000915_001505_002141_006749_007799_017313,
  1_011273_000001_000003_000007_000011_000015_000011_000049_000161_000155_000869_000121_000301_006561_004279_015233,
  1_011300_000001_000001_000005_000013_000019_000013_000103_000059_000503_000293_000701_002527_005327_013927_005025,
  1_011307_000001_000001_000007_000001_000001_000037_000055_000155_000485_000399_000855_002677_005927_009657_002795,
  1_011318_000001_000001_000001_000005_000019_000015_000121_000069_000385_000075_001567_002649_005601_012981_015903,
  1_011332_000001_000001_000001_000011_000019_000021_000045_000059_000505_000737_000015_001383_001177_008375_015557,
  1_011335_000001_000001_000007_000013_000029_000019_000123_000127_000469_000773_000733_003289_008087_005803_027897,
  1_011341_000001_000003_000003_000011_000019_000055_000101_000067_000485_000939_000607_001521_006161_012235_016499,
  1_011347_000001_000003_000005_000013_000029_000031_000031_000009_000453_000151_001055_003873_000405_012877_029829,
  1_011354_000001_000003_000005_000001_000017_000001_000017_000131_000107_001003_001749_001849_006207_002153_021275,
  1_011360_000001_000003_000007_000015_000007_000025_000051_000143_000051_000517_001841_001771_005389_004633_011123,
  1_011369_000001_000003_000007_000011_000023_000007_000089_000095_000403_000361_000835_000585_002783_008091_005141,
  1_011372_000001_000003_000001_000009_000001_000053_000115_000011_000493_000587_000305_003605_001711_004169_020013,
  1_011378_000001_000003_000007_000003_000017_000059_000055_000251_000049_000759_001227_003685_007765_001445_020385,
  1_011396_000001_000001_000005_000007_000029_000055_000019_000157_000129_000927_000893_001235_001955_008153_002865,
  1_011405_000001_000003_000001_000015_000021_000035_000081_000053_000175_000939_001635_003597_000747_014011_012867,
  1_011417_000001_000003_000007_000001_000027_000061_000091_000073_000405_000677_000603_002715_007099_000941_024523,
  1_011424_000001_000003_000005_000009_000013_000045_000035_000167_000057_000483_000735_002777_007847_006257_013109,
  1_011427_000001_000003_000005_000007_000001_000003_000097_000013_000159_000533_001791_001061_000981_010795_026165,
  1_011430_000001_000001_000005_000013_000027_000005_000125_000025_000251_000221_001909_000197_006987_011537_015287,
  1_011439_000001_000003_000005_000005_000027_000015_000001_000131_000375_000923_000081_003153_006071_002515_023729,
  1_011442_000001_000003_000003_000009_000009_000023_000071_000013_000465_000261_000937_001549_005993_011325_015065,
  1_011448_000001_000003_000001_000003_000007_000063_000017_000129_000435_000023_000215_002251_001561_009703_026483,
  1_011461_000001_000001_000003_000001_000005_000053_000077_000109_000009_000605_000371_002081_006023_007145_015837,
  1_011468_000001_000003_000007_000011_000027_000039_000115_000047_000259_000337_001857_003465_001549_007747_008525,
  1_011471_000001_000003_000007_000007_000029_000029_000075_000077_000029_000661_000899_003137_002661_015271_028093,
  1_011473_000001_000001_000001_000003_000003_000003_000011_000219_000039_000757_001465_000249_007445_007013_015187,
  1_011476_000001_000003_000007_000015_000015_000001_000039_000245_000427_001003_001493_001913_006435_014787_013481,
  1_011480_000001_000001_000007_000003_000003_000037_000005_000097_000343_000833_001379_001551_005403_001843_005877,
  1_011489_000001_000003_000001_000001_000003_000017_000017_000163_000339_000691_001707_001845_005941_004259_024531,
  1_011499_000001_000001_000001_000001_000027_000021_000085_000221_000071_000949_001753_000391_006349_015901_020811,
  1_011516_000001_000001_000001_000005_000031_000019_000045_000099_000469_000783_001747_003807_005889_009485_013715,
  1_011522_000001_000003_000001_000009_000023_000021_000039_000025_000421_000713_000461_002857_005023_005341_006409,
  1_011531_000001_000003_000007_000005_000025_000019_000059_000147_000387_000857_000375_003103_001261_013697_025675,
  1_011539_000001_000003_000005_000005_000031_000021_000049_000251_000463_000441_000473_003487_003915_011151_017721,
  1_011546_000001_000001_000003_000009_000015_000047_000081_000219_000143_000141_000081_001705_005847_003437_030521,
  1_011551_000001_000001_000007_000003_000025_000019_000097_000041_000077_000105_001337_000695_007589_008587_007509,
  1_011564_000001_000001_000005_000013_000003_000011_000061_000019_000139_000667_000963_001567_005715_007079_015967,
  1_011582_000001_000001_000005_000005_000005_000029_000067_000057_000477_000173_001163_000727_000823_015635_017705,
  1_011589_000001_000003_000007_000011_000013_000039_000057_000193_000073_000617_000535_001623_004581_004451_002589,
  1_011593_000001_000001_000005_000005_000009_000027_000075_000127_000325_000413_001669_001749_008045_016199_012237,
  1_011601_000001_000001_000003_000001_000017_000023_000027_000189_000319_000953_000347_000909_004401_012791_025077,
  1_011608_000001_000001_000003_000003_000017_000051_000037_000079_000301_000607_000885_001169_003275_003327_020013,
  1_011617_000001_000003_000005_000003_000021_000009_000099_000213_000387_000889_000575_003591_005377_002981_023989,
  1_011630_000001_000003_000003_000013_000011_000007_000023_000255_000279_000853_000453_002377_008123_015393_009669,
  1_011663_000001_000003_000001_000007_000011_000009_000109_000035_000405_000449_001967_002943_003485_005031_014273,
  1_011666_000001_000003_000003_000001_000025_000027_000043_000115_000435_000675_001937_001477_004831_009417_007017,
  1_011668_000001_000001_000007_000013_000019_000045_000083_000241_000487_000215_001453_000209_004061_001765_015623,
  1_011677_000001_000001_000007_000007_000021_000031_000095_000009_000287_001005_001933_003405_006913_007733_018975,
  1_011682_000001_000001_000001_000011_000013_000011_000025_000039_000283_000057_000255_002809_005767_006127_006705,
  1_011687_000001_000003_000001_000011_000001_000051_000073_000181_000261_000215_000385_002777_005169_012431_023563,
  1_011696_000001_000003_000003_000009_000009_000039_000123_000197_000501_000679_000109_003369_004817_008855_007997,
  1_011713_000001_000001_000005_000001_000029_000061_000015_000183_000453_000999_001211_003217_008035_005153_019975,
  1_011728_000001_000003_000007_000011_000011_000021_000051_000045_000379_000793_000289_000309_001229_007159_000581,
  1_011747_000001_000001_000003_000009_000017_000011_000075_000067_000289_000191_001083_002949_006063_006611_021595,
  1_011750_000001_000003_000007_000003_000027_000045_000059_000193_000485_000277_000027_001219_002389_015875_006273,
  1_011754_000001_000001_000005_000003_000031_000029_000065_000197_000115_000163_000009_000783_005573_002833_012603,
  1_011759_000001_000001_000003_000007_000005_000053_000115_000181_000175_000749_001335_001151_002131_012467_015811,
  1_011761_000001_000001_000001_000009_000027_000039_000011_000001_000443_000677_000777_001857_007459_003177_003875,
  1_011764_000001_000001_000007_000007_000017_000003_000023_000161_000105_000603_001991_003845_000465_011467_002077,
  1_011767_000001_000001_000003_000013_000005_000023_000039_000035_000399_000795_000265_000207_001823_015069_031839,
  1_011797_000001_000001_000001_000001_000029_000061_000089_000193_000041_000099_000315_001021_006109_012507_019973,
  1_011804_000001_000001_000005_000003_000013_000057_000119_000251_000215_000695_001521_004081_002481_000657_000855,
  1_011808_000001_000001_000007_000003_000025_000005_000003_000133_000111_000385_000773_001027_004327_003031_003537,
  1_011831_000001_000003_000007_000005_000005_000027_000043_000117_000479_000083_001421_002791_006551_006231_010353]

def dirRows15_0_13 : List Nat := [
  1_011832_000001_000001_000001_000013_000003_000029_000035_000071_000085_000821_001671_003057_000797_013683_007025,
  1_011849_000001_000003_000007_000001_000001_000047_000117_000233_000141_000993_001381_002551_001031_011765_018429,
  1_011855_000001_000003_000001_000003_000013_000003_000077_000029_000035_000807_001109_000695_005605_005477_000449,
  1_011863_000001_000001_000001_000015_000021_000037_000117_000105_000273_000311_001287_001415_001221_001847_019487,
  1_011880_000001_000003_000001_000011_000021_000061_000107_000225_000335_000501_001995_002399_005475_012613_018877,
  1_011883_000001_000003_000003_000001_000031_000041_000027_000205_000103_000837_000639_002007_002759_012471_001457,
  1_011885_000001_000001_000007_000013_000029_000039_000071_000245_000105_000235_001277_001515_006129_015947_026653,
  1_011898_000001_000001_000007_000005_000007_000013_000087_000251_000315_001017_000587_002917_005911_002919_029715,
  1_011916_000001_000001_000001_000003_000007_000019_000081_000243_000177_000917_002023_002365_007465_004901_029841,
  1_011924_000001_000003_000005_000015_000001_000031_000015_000147_000285_001003_001757_000047_006925_001197_019633,
  1_011928_000001_000001_000005_000007_000027_000025_000047_000209_000085_000403_001399_002331_003663_000595_013407,
  1_011947_000001_000003_000005_000009_000007_000025_000007_000139_000389_000817_001153_001421_005735_009577_010269,
  1_011955_000001_000001_000001_000009_000005_000061_000049_000117_000389_000541_000433_001405_002575_000223_007265,
  1_011961_000001_000001_000005_000007_000015_000001_000081_000207_000435_000843_000835_003797_007637_005333_031115,
  1_011962_000001_000003_000007_000011_000013_000003_000047_000249_000301_000715_002015_003049_008155_010989_026051,
  1_011982_000001_000001_000007_000007_000003_000033_000119_000113_000381_000575_000367_000041_003317_011727_004351,
  1_011990_000001_000003_000003_000013_000009_000003_000051_000037_000173_000137_000533_001827_000631_010047_006267,
  1_012010_000001_000003_000003_000011_000017_000039_000061_000245_000013_000139_001281_001319_001233_013629_032269,
  1_012018_000001_000001_000001_000007_000015_000017_000091_000109_000163_000609_000011_003251_007653_014035_031755,
  1_012027_000001_000003_000003_000015_000013_000021_000055_000231_000385_000133_001833_002637_006935_014303_026745,
  1_012029_000001_000001_000001_000007_000017_000041_000125_000141_000089_000823_001411_003637_006211_013323_006111,
  1_012035_000001_000001_000001_000011_000001_000021_000009_000043_000097_000685_001223_001491_000121_001793_002397,
  1_012055_000001_000003_000005_000005_000017_000017_000005_000223_000129_000865_001839_001137_006391_004377_009233,
  1_012062_000001_000003_000007_000015_000021_000055_000005_000077_000341_000637_001853_001435_001195_009283_021257,
  1_012068_000001_000003_000005_000001_000009_000049_000043_000211_000127_000655_001397_001235_005279_002351_024229,
  1_012071_000001_000003_000005_000003_000025_000029_000013_000229_000025_000675_000837_002753_002125_009863_011293,
  1_012072_000001_000003_000005_000007_000023_000043_000127_000001_000163_000237_000337_003019_007747_016227_002881,
  1_012086_000001_000003_000005_000005_000025_000009_000043_000171_000421_000521_001885_000337_007873_006347_013181,
  1_012097_000001_000003_000005_000005_000007_000047_000107_000173_000163_000191_000625_003389_002833_007945_024787,
  1_012098_000001_000001_000007_000003_000027_000057_000027_000209_000253_000815_000301_001633_003945_005051_028851,
  1_012100_000001_000003_000007_000009_000009_000051_000103_000213_000437_000189_001857_001331_005551_010641_027405,
  1_012112_000001_000001_000005_000005_000015_000001_000025_000105_000117_000347_000161_003369_003589_012903_023559,
  1_012118_000001_000001_000001_000005_000003_000061_000093_000051_000081_000281_001383_000745_004137_002005_003635,
  1_012133_000001_000003_000007_000005_000013_000057_000111_000211_000303_000477_000359_004019_006779_005129_022035,
  1_012134_000001_000001_000001_000007_000017_000029_000113_000113_000201_000531_000749_000739_002879_003315_018733,
  1_012137_000001_000003_000007_000013_000021_000055_000021_000183_000359_000075_000377_002211_004281_014317_028307,
  1_012161_000001_000003_000007_000001_000021_000001_000049_000213_000317_000075_000113_001741_007963_012785_011571,
  1_012162_000001_000003_000007_000009_000011_000031_000029_000101_000261_000141_000715_002727_008187_002075_032433,
  1_012171_000001_000003_000007_000003_000023_000009_000017_000143_000385_000211_000593_000241_006567_010777_006677,
  1_012174_000001_000001_000003_000015_000003_000017_000117_000099_000091_000793_000989_002421_005643_016103_009759,
  1_012185_000001_000003_000007_000011_000023_000043_000107_000035_000421_000431_000743_000853_007939_012169_004199,
  1_012204_000001_000001_000001_000011_000021_000053_000017_000203_000123_000395_000059_000929_000255_007585_010945,
  1_012212_000001_000003_000003_000015_000017_000057_000057_000133_000067_000071_001685_000903_004079_015423_026495,
  1_012215_000001_000001_000001_000015_000003_000047_000095_000039_000405_000407_001557_003001_006225_015187_005663,
  1_012216_000001_000003_000005_000005_000013_000047_000033_000061_000375_001023_001981_002773_002375_011321_017731,
  1_012253_000001_000003_000005_000009_000017_000059_000117_000095_000493_000149_001269_002865_000369_002109_024601,
  1_012260_000001_000003_000005_000013_000017_000063_000067_000247_000095_000721_000067_000305_006179_015399_032559,
  1_012277_000001_000001_000005_000001_000003_000021_000041_000015_000453_000475_002017_003193_005903_000897_004237,
  1_012289_000001_000001_000005_000003_000015_000041_000001_000141_000441_000575_000155_003791_007711_011231_024611,
  1_012295_000001_000003_000007_000001_000017_000053_000027_000169_000031_000437_000963_001793_007777_001917_029311,
  1_012314_000001_000003_000003_000013_000009_000027_000077_000087_000329_000885_000749_001713_006013_006921_000629,
  1_012323_000001_000003_000005_000013_000003_000007_000053_000027_000353_000267_000925_002141_000439_015175_030851,
  1_012325_000001_000003_000003_000013_000017_000057_000035_000101_000265_000901_001825_002159_006149_005967_024023,
  1_012335_000001_000001_000005_000011_000013_000051_000099_000111_000193_000415_001541_002929_005045_003147_012587,
  1_012349_000001_000003_000007_000011_000015_000009_000033_000017_000511_000815_000299_001077_006171_010451_015039,
  1_012358_000001_000001_000001_000015_000025_000063_000051_000137_000449_000951_001051_001101_004725_002463_007355,
  1_012372_000001_000001_000001_000007_000027_000063_000029_000179_000317_000521_001459_000827_006599_013459_015439,
  1_012376_000001_000003_000003_000015_000017_000031_000037_000191_000229_000245_000181_000941_005761_001849_031599,
  1_012379_000001_000001_000001_000009_000027_000045_000067_000239_000481_000615_001667_003751_008141_010013_002125,
  1_012386_000001_000001_000001_000001_000013_000051_000117_000135_000073_000151_001291_002541_001411_003767_026949,
  1_012395_000001_000003_000001_000009_000007_000011_000021_000187_000243_000857_001951_000865_007273_002041_008155,
  1_012416_000001_000001_000003_000003_000019_000033_000089_000115_000455_000137_000707_001867_004221_002433_009119,
  1_012421_000001_000001_000003_000011_000005_000003_000121_000001_000071_000951_000603_003873_000723_003285_019289,
  1_012440_000001_000003_000007_000015_000021_000001_000117_000017_000455_000519_000731_003003_005741_009557_029163,
  1_012452_000001_000001_000003_000013_000025_000005_000043_000147_000209_000895_000255_001231_000241_000487_015593,
  1_012455_000001_000001_000003_000013_000007_000001_000089_000187_000217_000927_002029_003521_002777_008103_022819,
  1_012456_000001_000001_000007_000011_000007_000033_000003_000073_000005_000489_000227_002259_007031_006425_026135,
  1_012462_000001_000003_000003_000007_000031_000019_000097_000201_000455_000819_000945_002771_008083_008711_002835,
  1_012467_000001_000001_000001_000005_000015_000045_000043_000157_000245_000967_000877_002289_004499_009891_018827,
  1_012479_000001_000003_000001_000007_000021_000059_000123_000063_000231_000485_001781_001211_004597_005269_001607,
  1_012505_000001_000001_000001_000013_000023_000039_000105_000055_000249_000991_001625_003089_003825_004275_029139,
  1_012521_000001_000003_000003_000001_000029_000029_000055_000169_000013_000895_001355_001101_006063_012935_023215,
  1_012535_000001_000001_000005_000005_000031_000049_000099_000137_000209_001017_001179_003931_000637_014131_019285,
  1_012547_000001_000001_000001_000001_000003_000011_000119_000011_000215_000337_000243_003883_003807_007335_011901,
  1_012556_000001_000003_000007_000003_000007_000027_000071_000225_000219_000367_001213_002739_001185_010175_021313,
  1_012561_000001_000003_000007_000013_000007_000049_000023_000223_000061_001011_000797_001335_006711_005961_005605,
  1_012568_000001_000003_000003_000011_000019_000037_000001_000149_000039_000661_000929_002125_002299_005181_028083,
  1_012578_000001_000003_000003_000013_000013_000009_000067_000021_000463_000279_000529_000523_006705_011011_031695,
  1_012583_000001_000003_000001_000005_000013_000001_000123_000003_000291_000625_001949_002713_005917_010343_013627,
  1_012595_000001_000001_000003_000009_000027_000041_000003_000207_000103_000265_000811_000549_006109_000313_008889,
  1_012604_000001_000003_000003_000013_000023_000043_000099_000033_000279_000463_000955_000793_004113_010615_016957,
  1_012610_000001_000001_000005_000007_000011_000049_000079_000045_000017_000937_000359_001037_001099_003003_031561,
  1_012621_000001_000001_000001_000007_000003_000045_000111_000035_000109_000983_000053_004057_007349_003599_002209,
  1_012622_000001_000003_000007_000011_000009_000043_000027_000009_000085_000529_001497_000347_000759_012449_011373,
  1_012624_000001_000001_000003_000009_000017_000001_000049_000031_000367_000813_001385_002025_000773_004679_004543,
  1_012629_000001_000001_000005_000015_000015_000009_000043_000097_000239_000995_001037_000841_004167_012113_023765,
  1_012630_000001_000003_000005_000009_000029_000053_000123_000049_000221_000113_001157_000073_006087_001363_011029,
  1_012639_000001_000003_000001_000013_000003_000015_000069_000199_000279_000919_000005_000161_004817_015031_000121,
  1_012640_000001_000003_000001_000009_000003_000031_000117_000077_000393_000241_000645_003181_001067_015879_002037,
  1_012650_000001_000003_000003_000015_000003_000063_000057_000033_000117_000789_000941_001301_005865_012693_003523,
  1_012679_000001_000001_000005_000013_000003_000061_000051_000151_000175_000305_000095_001557_006567_007841_013903,
  1_012680_000001_000003_000003_000005_000015_000025_000127_000079_000245_000767_000645_003933_001357_012579_004067,
  1_012698_000001_000003_000005_000011_000021_000031_000013_000251_000127_000231_001795_002627_001191_003363_023543,
  1_012716_000001_000001_000003_000005_000007_000049_000121_000057_000131_000481_001879_000525_005225_000337_001957,
  1_012721_000001_000001_000005_000013_000009_000055_000027_000037_000211_000125_000119_003373_000251_012357_013975,
  1_012722_000001_000003_000003_000015_000001_000051_000091_000119_000233_000993_000203_001635_001167_006327_029119,
  1_012731_000001_000001_000007_000001_000013_000005_000023_000253_000121_000989_001105_003321_003221_006073_021185,
  1_012742_000001_000001_000003_000015_000013_000049_000121_000247_000247_000133_000485_001067_007875_000411_007647,
  1_012745_000001_000003_000007_000013_000031_000037_000127_000241_000145_000133_000053_000267_002029_003703_016123,
  1_012751_000001_000003_000001_000015_000015_000009_000015_000089_000035_000367_000401_000061_001953_007873_017861]

def dirRows15_0_14 : List Nat := [
  1_012759_000001_000001_000001_000001_000001_000041_000071_000249_000213_000779_001385_001767_000999_015151_016647,
  1_012763_000001_000003_000007_000013_000031_000023_000123_000235_000343_000949_000309_003777_003587_000853_019779,
  1_012769_000001_000001_000003_000013_000029_000035_000005_000037_000063_000757_000303_001579_003443_000243_011873,
  1_012781_000001_000003_000001_000009_000019_000049_000081_000053_000011_000901_001857_000147_003103_014019_000021,
  1_012793_000001_000003_000007_000013_000003_000039_000099_000099_000045_000091_001567_000551_003129_004809_029057,
  1_012799_000001_000003_000007_000003_000003_000027_000017_000231_000377_000381_001479_002525_002595_002799_025737,
  1_012815_000001_000003_000005_000015_000015_000025_000103_000215_000301_000059_001417_000981_007579_012731_022329,
  1_012824_000001_000001_000001_000013_000005_000031_000061_000031_000349_000925_001301_000685_000435_011567_010715,
  1_012836_000001_000001_000007_000009_000019_000057_000109_000001_000037_000377_001015_002273_006741_003191_015949,
  1_012845_000001_000003_000003_000013_000003_000023_000103_000127_000011_000059_001847_001175_000425_003423_020643,
  1_012853_000001_000003_000003_000007_000003_000011_000105_000141_000055_000217_001427_000477_000667_009403_011905,
  1_012854_000001_000003_000003_000005_000003_000027_000011_000187_000495_000907_001925_000445_006639_008159_015225,
  1_012857_000001_000003_000001_000005_000027_000031_000077_000213_000073_000343_001123_003609_002431_015329_032165,
  1_012866_000001_000001_000007_000005_000001_000011_000105_000139_000485_001007_000709_003509_005231_011717_031433,
  1_012872_000001_000001_000003_000015_000023_000049_000095_000169_000399_001019_000019_002013_005311_007951_022609,
  1_012875_000001_000003_000001_000007_000013_000003_000029_000203_000209_000701_001791_002615_005351_004237_012565,
  1_012878_000001_000003_000001_000015_000027_000011_000091_000031_000205_000205_001683_000901_005129_006049_011865,
  1_012880_000001_000001_000007_000007_000027_000059_000021_000003_000209_000079_000769_004013_002041_002645_011561,
  1_012885_000001_000003_000007_000011_000005_000045_000039_000243_000185_000871_000795_001845_008043_006285_020991,
  1_012901_000001_000001_000005_000007_000013_000007_000015_000165_000349_000179_000789_001269_003787_005429_026567,
  1_012902_000001_000003_000003_000013_000031_000023_000075_000041_000177_000735_001889_004039_003519_015003_000965,
  1_012920_000001_000003_000001_000007_000015_000057_000015_000139_000027_000469_001003_000691_007893_009643_030983,
  1_012926_000001_000003_000001_000013_000023_000027_000003_000237_000233_000875_000099_000883_006167_005463_006245,
  1_012929_000001_000001_000005_000013_000025_000057_000079_000051_000147_000619_001147_000279_006583_001939_000477,
  1_012939_000001_000003_000005_000005_000031_000061_000125_000163_000213_000699_000583_003865_000615_009707_011651,
  1_012941_000001_000001_000005_000001_000005_000021_000093_000239_000031_000641_000777_000027_005247_008993_021053,
  1_012950_000001_000003_000007_000009_000001_000013_000061_000057_000503_000453_000083_003271_002845_001121_018639,
  1_012953_000001_000001_000007_000005_000029_000053_000013_000219_000379_000441_000821_003179_004877_002535_007557,
  1_012992_000001_000001_000007_000013_000009_000053_000017_000183_000265_000393_000587_002753_006453_007135_024737,
  1_013002_000001_000001_000001_000013_000011_000023_000073_000109_000393_001013_000559_000755_007291_006631_026509,
  1_013010_000001_000003_000001_000005_000005_000015_000107_000103_000355_000307_001559_000837_005413_005285_017489,
  1_013058_000001_000001_000005_000007_000017_000021_000021_000023_000109_000709_001947_003585_003629_004669_000949,
  1_013072_000001_000003_000007_000001_000009_000033_000085_000147_000467_000259_001913_000199_007399_009551_022387,
  1_013084_000001_000003_000005_000011_000015_000053_000023_000041_000249_000515_001161_002467_001299_007449_002613,
  1_013087_000001_000001_000005_000005_000005_000029_000091_000139_000487_000545_000321_003035_004545_006747_021673,
  1_013091_000001_000001_000003_000013_000023_000049_000095_000103_000025_000119_000469_002515_002551_000841_025089,
  1_013097_000001_000001_000005_000007_000011_000031_000031_000197_000245_000715_000257_004043_008099_011531_005617,
  1_013108_000001_000001_000003_000003_000019_000007_000009_000179_000103_000995_000191_000179_003843_005215_027639,
  1_013123_000001_000003_000001_000007_000023_000059_000025_000065_000399_000211_001453_003511_007203_016015_032197,
  1_013149_000001_000003_000003_000005_000009_000035_000109_000067_000197_000449_000643_000519_005751_015551_011331,
  1_013150_000001_000003_000005_000003_000001_000017_000053_000201_000265_000351_000467_000911_001117_007183_020371,
  1_013163_000001_000001_000007_000007_000027_000017_000093_000081_000227_000619_001191_000735_000815_012615_002719,
  1_013166_000001_000003_000001_000015_000019_000003_000083_000075_000343_000297_001019_003469_004383_013299_029755,
  1_013178_000001_000001_000005_000003_000013_000055_000119_000169_000085_000595_000299_002469_005625_002877_016117,
  1_013180_000001_000001_000003_000005_000015_000017_000061_000161_000047_000393_000143_000867_005517_009495_012795,
  1_013184_000001_000003_000005_000001_000027_000031_000113_000125_000251_000687_000969_001473_002245_006355_013655,
  1_013204_000001_000001_000001_000005_000005_000037_000029_000133_000443_000899_000277_002353_007223_004459_019159,
  1_013238_000001_000001_000003_000009_000019_000027_000053_000145_000195_000167_002045_000447_001803_001895_008431,
  1_013242_000001_000001_000003_000009_000005_000027_000091_000147_000233_000451_000475_000027_004629_016181_016437,
  1_013249_000001_000003_000005_000003_000029_000017_000053_000167_000433_000689_001131_002985_001553_011697_006993,
  1_013255_000001_000003_000003_000013_000021_000043_000069_000229_000399_000525_000179_000237_007017_005703_017653,
  1_013269_000001_000001_000003_000015_000013_000039_000075_000163_000229_000875_000197_000477_003667_015501_015801,
  1_013270_000001_000001_000007_000015_000015_000051_000081_000187_000487_000673_000865_001915_001009_005935_008097,
  1_013274_000001_000003_000005_000005_000007_000003_000063_000077_000495_000815_000391_002321_001007_015661_030715,
  1_013285_000001_000001_000007_000003_000017_000025_000083_000173_000173_000911_001373_002957_004549_015977_017695,
  1_013289_000001_000001_000007_000013_000013_000023_000077_000147_000497_001003_001687_001795_001393_001881_008479,
  1_013298_000001_000003_000007_000011_000027_000043_000097_000025_000061_000457_000203_002573_005943_015021_004003,
  1_013307_000001_000003_000003_000013_000009_000037_000037_000025_000219_000889_001535_002791_004531_013679_012663,
  1_013312_000001_000001_000003_000001_000017_000007_000051_000123_000089_000887_001467_001645_003767_006383_030837,
  1_013335_000001_000003_000003_000001_000021_000047_000005_000151_000083_000257_000569_002711_000637_012569_016893,
  1_013345_000001_000003_000007_000001_000031_000037_000073_000003_000115_000919_001817_002483_004811_015245_004375,
  1_013357_000001_000001_000001_000005_000001_000039_000039_000231_000009_000733_000455_003383_004777_007235_012631,
  1_013366_000001_000001_000007_000009_000013_000025_000055_000025_000073_000059_001699_000929_000755_001279_005583,
  1_013372_000001_000003_000005_000003_000009_000049_000079_000055_000479_000179_001159_004079_003503_011603_012361,
  1_013380_000001_000001_000005_000009_000021_000045_000031_000163_000377_000817_000219_000147_002581_012769_030783,
  1_013384_000001_000003_000001_000007_000015_000027_000039_000189_000493_000259_001663_001213_000961_011089_016079,
  1_013395_000001_000001_000005_000009_000005_000041_000013_000153_000313_000337_001027_001267_004249_013071_027043,
  1_013407_000001_000003_000007_000003_000013_000011_000023_000255_000051_000527_000317_003217_005037_012723_017411,
  1_013408_000001_000001_000005_000001_000025_000057_000083_000097_000233_000513_001283_002675_004111_004111_032141,
  1_013413_000001_000003_000003_000015_000025_000033_000103_000081_000155_000189_000139_001179_002691_015119_013959,
  1_013414_000001_000003_000003_000001_000025_000055_000067_000019_000019_000009_000437_000579_004273_010733_007125,
  1_013417_000001_000001_000001_000007_000023_000041_000047_000005_000435_000749_000595_000199_003941_007199_004795,
  1_013437_000001_000003_000001_000015_000005_000049_000035_000009_000199_000703_001769_003269_005689_013063_022771,
  1_013441_000001_000001_000005_000005_000021_000055_000125_000055_000063_000149_001167_003577_001051_003921_020545,
  1_013447_000001_000003_000007_000013_000029_000053_000107_000193_000163_000339_001335_001573_005809_005681_029487,
  1_013456_000001_000001_000001_000009_000017_000009_000091_000177_000211_000453_001807_001881_006051_000225_006021,
  1_013459_000001_000001_000001_000013_000015_000001_000029_000043_000181_000105_001945_002313_006429_002901_006221,
  1_013461_000001_000003_000005_000011_000029_000055_000115_000115_000187_001013_000697_001885_000121_012387_032443,
  1_013466_000001_000001_000001_000007_000019_000051_000021_000107_000055_000125_001655_002281_003293_015749_027521,
  1_013484_000001_000001_000007_000009_000019_000009_000081_000093_000139_000401_000193_000073_005159_009323_006019,
  1_013487_000001_000001_000007_000009_000015_000051_000115_000069_000247_000599_001163_002251_001211_008827_015581,
  1_013489_000001_000001_000007_000009_000005_000039_000075_000185_000321_000911_000849_000843_006791_010407_010513,
  1_013492_000001_000001_000005_000005_000015_000009_000021_000047_000459_000681_002001_001545_005939_007073_029043,
  1_013496_000001_000003_000001_000011_000013_000025_000053_000097_000487_000797_000567_003757_005597_006313_018531,
  1_013510_000001_000001_000003_000003_000029_000055_000011_000219_000325_000591_002015_000383_002595_011855_022501,
  1_013531_000001_000001_000001_000005_000015_000057_000033_000125_000323_000749_001843_004019_002075_006673_006957,
  1_013538_000001_000001_000005_000007_000019_000007_000047_000239_000051_000107_001081_000467_005493_007617_010355,
  1_013543_000001_000003_000001_000001_000011_000003_000067_000199_000175_000421_000935_000309_004449_006363_009183,
  1_013547_000001_000001_000001_000007_000009_000033_000003_000219_000481_000513_000417_001267_002863_000765_018431,
  1_013572_000001_000003_000001_000001_000019_000001_000089_000109_000415_000105_000487_003241_007465_009233_016307,
  1_013581_000001_000001_000003_000013_000009_000043_000025_000231_000383_000789_001855_000691_003465_002387_011715,
  1_013590_000001_000003_000003_000003_000013_000039_000063_000107_000033_000265_000437_000117_003179_005543_028179,
  1_013605_000001_000003_000003_000013_000021_000005_000031_000111_000321_000425_000253_003501_003209_015429_018383,
  1_013612_000001_000003_000005_000009_000001_000027_000117_000187_000433_000459_001999_001069_004857_008591_026343,
  1_013624_000001_000001_000007_000003_000015_000043_000011_000193_000391_000341_001203_001259_007265_001783_013161,
  1_013630_000001_000001_000007_000001_000005_000015_000045_000143_000193_000985_001105_003483_002421_009687_022347,
  1_013632_000001_000003_000007_000013_000021_000017_000079_000231_000487_000663_001101_001025_005779_014681_029181,
  1_013638_000001_000001_000003_000009_000015_000019_000055_000219_000027_000963_001513_001017_003907_012279_032655,
  1_013661_000001_000003_000007_000003_000031_000027_000017_000001_000051_000861_000529_001225_006395_015787_005231,
  1_013665_000001_000003_000003_000011_000027_000007_000101_000143_000021_000191_001437_002393_004097_014319_006977]

def dirRows15_0_15 : List Nat := [
  1_013668_000001_000003_000003_000003_000025_000035_000105_000141_000433_000269_001469_002939_005387_007373_007863,
  1_013686_000001_000003_000007_000005_000005_000021_000023_000011_000217_000357_001847_000101_001161_005297_014879,
  1_013699_000001_000003_000001_000003_000025_000023_000081_000217_000505_000161_001667_001343_001751_002463_026431,
  1_013701_000001_000001_000003_000001_000017_000051_000125_000205_000385_000351_000731_002911_002749_002689_027031,
  1_013708_000001_000001_000005_000005_000005_000017_000031_000171_000477_000671_000167_001797_008047_010123_004325,
  1_013716_000001_000001_000007_000001_000011_000023_000123_000161_000099_001007_000765_001965_005395_016193_017751,
  1_013725_000001_000003_000001_000009_000013_000011_000111_000217_000031_000753_000377_002267_007893_007195_024999,
  1_013730_000001_000003_000001_000009_000021_000053_000127_000121_000151_000395_001447_001411_005179_012043_027607,
  1_013742_000001_000001_000005_000003_000011_000037_000097_000139_000113_000835_000229_003741_000827_005527_005779,
  1_013747_000001_000001_000007_000007_000027_000055_000011_000055_000429_000269_001179_000233_001053_010225_016703,
  1_013749_000001_000001_000001_000003_000015_000009_000067_000119_000095_000753_000511_002507_003953_006403_027635,
  1_013753_000001_000003_000003_000007_000027_000057_000025_000027_000249_000515_000193_004043_002017_000751_010949,
  1_013754_000001_000003_000001_000009_000031_000057_000067_000021_000177_000573_001835_002015_006201_002383_031087,
  1_013771_000001_000001_000005_000001_000019_000003_000089_000243_000069_000387_001905_003465_002775_007713_030081,
  1_013773_000001_000001_000003_000003_000009_000059_000015_000089_000085_000605_000881_000263_002551_000797_016541,
  1_013782_000001_000003_000007_000011_000025_000041_000059_000139_000405_000571_001147_002963_004175_012901_006309,
  1_013785_000001_000003_000001_000005_000029_000029_000011_000243_000183_000281_000807_000001_007079_010079_013865,
  1_013798_000001_000003_000007_000005_000005_000001_000089_000055_000423_000157_000675_001849_000241_006467_015459,
  1_013802_000001_000001_000007_000011_000015_000063_000089_000109_000501_000549_000317_003043_001151_003895_019851,
  1_013809_000001_000003_000001_000015_000007_000023_000097_000097_000225_000737_001117_003325_000209_014169_010813,
  1_013828_000001_000003_000007_000013_000013_000039_000091_000153_000395_000879_001041_003753_005577_001985_025247,
  1_013832_000001_000001_000001_000003_000017_000015_000113_000143_000101_000901_001119_001819_003577_003441_031511,
  1_013840_000001_000003_000001_000011_000015_000027_000021_000037_000287_000121_000451_001353_002173_000299_018791,
  1_013850_000001_000003_000003_000005_000023_000001_000049_000145_000315_000769_000099_001385_005961_009121_001465,
  1_013861_000001_000003_000003_000013_000021_000039_000039_000233_000271_000113_000615_002257_003765_005921_000313,
  1_013874_000001_000003_000007_000007_000025_000045_000011_000237_000083_000203_000929_001819_002679_011583_030091,
  1_013876_000001_000001_000001_000007_000021_000063_000085_000251_000133_000991_001515_002547_006051_007279_003569,
  1_013886_000001_000003_000007_000015_000011_000019_000087_000017_000313_000283_001021_002743_004855_013741_017955,
  1_013897_000001_000001_000007_000013_000029_000013_000061_000093_000081_000091_000995_000907_004847_002599_020041,
  1_013900_000001_000001_000003_000011_000013_000045_000103_000033_000243_000109_002029_000121_000231_016179_013741,
  1_013915_000001_000003_000005_000009_000009_000005_000073_000225_000199_000723_000611_001909_002345_010257_009909,
  1_013927_000001_000001_000003_000011_000007_000005_000033_000089_000431_000899_000803_003173_006131_016097_020561,
  1_013951_000001_000003_000003_000007_000007_000047_000023_000047_000411_000069_000239_000661_005591_010457_024245,
  1_013955_000001_000001_000005_000015_000025_000035_000087_000023_000115_000939_001579_000119_004001_013791_009729,
  1_013962_000001_000003_000005_000011_000025_000045_000029_000195_000369_000237_000735_000155_000123_004415_032255,
  1_013969_000001_000003_000003_000009_000013_000053_000015_000077_000313_000075_000529_000925_005679_014585_019889,
  1_013979_000001_000001_000007_000015_000015_000027_000105_000013_000031_000669_000563_001809_004321_007797_004177,
  1_013988_000001_000001_000005_000009_000003_000029_000111_000177_000033_000235_001951_001561_000141_004803_016327,
  1_013998_000001_000001_000001_000007_000009_000041_000001_000149_000095_000933_000115_001619_000771_008189_008781,
  1_014000_000001_000001_000005_000003_000013_000041_000033_000159_000355_000159_001243_001439_006571_014397_031321,
  1_014005_000001_000001_000007_000011_000009_000015_000091_000145_000457_000255_001449_000611_001449_002521_028949,
  1_014027_000001_000003_000007_000005_000027_000057_000035_000099_000447_000287_000743_001163_004379_007361_003831,
  1_014037_000001_000003_000003_000007_000015_000053_000041_000083_000133_000571_001739_000531_002921_011527_021941,
  1_014051_000001_000001_000001_000013_000009_000027_000039_000113_000429_000447_000595_003171_005245_004095_014847,
  1_014054_000001_000001_000003_000007_000019_000019_000021_000101_000489_001011_000265_003899_003225_011701_005193,
  1_014060_000001_000003_000007_000003_000015_000025_000103_000213_000441_000215_001483_000263_003561_007915_007969,
  1_014063_000001_000003_000003_000003_000011_000047_000097_000029_000489_000867_001347_002155_004871_008001_018305,
  1_014071_000001_000003_000001_000009_000025_000015_000061_000017_000343_000775_001765_003803_004577_008437_012605,
  1_014078_000001_000001_000005_000003_000011_000039_000069_000023_000023_000065_001967_002429_001703_006671_014981,
  1_014080_000001_000001_000005_000015_000023_000059_000125_000051_000225_000439_002019_002589_007781_013111_002911,
  1_014085_000001_000001_000001_000003_000001_000031_000037_000245_000203_000305_000821_000367_005211_009791_021777,
  1_014086_000001_000001_000005_000009_000009_000031_000097_000025_000271_000083_000343_002461_001805_014383_010059,
  1_014095_000001_000001_000005_000013_000015_000033_000127_000109_000137_000963_000961_001647_007881_008133_022359,
  1_014138_000001_000001_000003_000007_000025_000031_000123_000241_000283_000001_001781_000023_000971_006485_000127,
  1_014145_000001_000001_000005_000015_000015_000027_000025_000145_000395_000679_000979_000571_001585_014787_007465,
  1_014158_000001_000001_000005_000007_000013_000011_000007_000131_000511_000597_000379_001513_006267_016039_001503,
  1_014166_000001_000001_000001_000013_000015_000049_000073_000217_000353_000577_001913_001127_000961_011557_024993,
  1_014179_000001_000003_000003_000009_000007_000003_000105_000141_000377_000687_001917_000485_000983_011149_023303,
  1_014181_000001_000001_000003_000015_000011_000007_000117_000179_000505_000067_001817_000913_005757_001981_001637,
  1_014188_000001_000001_000001_000007_000005_000029_000003_000043_000223_000295_001895_003425_005355_005155_017197,
  1_014193_000001_000001_000007_000009_000021_000059_000121_000245_000073_000233_001527_000869_004145_007995_006473,
  1_014200_000001_000001_000005_000013_000017_000021_000089_000179_000495_000669_000453_002603_005969_006161_004743,
  1_014203_000001_000001_000007_000011_000025_000021_000103_000131_000391_000249_001633_002603_002207_008987_015487,
  1_014215_000001_000003_000007_000009_000013_000045_000099_000251_000115_000597_001505_002421_001231_010015_024295,
  1_014224_000001_000001_000005_000005_000031_000049_000017_000067_000463_000813_001491_003309_007881_008109_007289,
  1_014230_000001_000003_000001_000015_000023_000035_000123_000021_000169_000499_000095_000603_001829_007865_026313,
  1_014233_000001_000001_000007_000001_000009_000029_000045_000065_000095_000097_000673_003673_002969_002317_022209,
  1_014236_000001_000001_000003_000007_000029_000033_000121_000017_000331_000487_001901_001951_005383_009375_004029,
  1_014246_000001_000003_000007_000009_000025_000043_000091_000147_000141_000401_001647_002697_004645_007179_031857,
  1_014267_000001_000003_000005_000011_000009_000031_000127_000105_000039_000883_001635_000919_005069_002875_024519,
  1_014282_000001_000001_000005_000009_000001_000063_000073_000135_000095_000503_000385_003903_000545_012635_027569,
  1_014287_000001_000001_000003_000011_000027_000031_000047_000173_000055_000339_001255_001947_000793_014133_013963,
  1_014301_000001_000001_000003_000015_000017_000033_000113_000249_000401_000743_001307_003123_000627_001253_013285,
  1_014323_000001_000001_000003_000001_000009_000007_000039_000065_000281_000107_000833_000193_002987_012267_031335,
  1_014325_000001_000001_000007_000003_000015_000021_000099_000211_000039_000179_000587_001169_006455_008225_002049,
  1_014329_000001_000003_000005_000013_000005_000013_000123_000001_000223_000273_000731_002967_004793_004229_026031,
  1_014339_000001_000001_000001_000001_000003_000017_000007_000023_000225_000757_000743_001257_002047_012509_025467,
  1_014342_000001_000001_000007_000015_000029_000003_000015_000113_000227_000675_001295_002777_002921_005485_002577,
  1_014351_000001_000003_000007_000013_000019_000021_000085_000129_000045_000599_000317_001513_004953_010383_025253,
  1_014356_000001_000001_000007_000011_000013_000047_000127_000067_000219_000131_000905_002005_000851_015243_005777,
  1_014359_000001_000001_000005_000003_000023_000057_000057_000189_000153_000037_000955_002049_001295_015119_027213,
  1_014370_000001_000003_000007_000011_000013_000061_000003_000241_000269_000789_001595_002369_004843_011347_021543,
  1_014402_000001_000001_000005_000005_000025_000021_000019_000237_000003_000605_001343_003965_003511_007889_027759,
  1_014411_000001_000003_000001_000015_000021_000015_000123_000005_000345_000945_000283_001313_000335_002085_019505,
  1_014421_000001_000001_000003_000003_000005_000021_000123_000089_000067_000011_001247_001155_000287_013455_005693,
  1_014431_000001_000003_000003_000013_000001_000053_000101_000027_000387_000379_000019_000751_002445_011737_000975,
  1_014435_000001_000003_000003_000003_000009_000029_000081_000117_000443_000145_001619_001813_008125_005829_028617,
  1_014442_000001_000001_000005_000015_000027_000015_000083_000083_000061_000715_001655_001631_003457_002727_002163,
  1_014447_000001_000003_000001_000005_000011_000011_000121_000007_000135_000883_000927_001817_006839_012361_024119,
  1_014456_000001_000003_000007_000011_000023_000059_000039_000165_000109_000355_001303_000381_005697_000275_003771,
  1_014459_000001_000003_000005_000011_000011_000005_000081_000157_000055_000435_000613_000127_004087_003791_021627,
  1_014472_000001_000003_000007_000015_000013_000037_000083_000195_000207_000771_000051_003685_006389_001229_011101,
  1_014477_000001_000003_000007_000013_000031_000003_000009_000013_000487_000095_000077_000809_005809_012887_029933,
  1_014490_000001_000001_000003_000007_000025_000009_000013_000029_000353_000659_001785_003825_003729_013109_012973,
  1_014496_000001_000001_000001_000005_000021_000003_000097_000001_000245_000917_000029_001429_008141_007569_032493,
  1_014501_000001_000003_000001_000009_000019_000013_000013_000109_000377_001007_001737_001939_001419_001145_005065,
  1_014505_000001_000001_000007_000009_000027_000057_000053_000069_000423_000043_001629_001003_001473_010809_005659,
  1_014513_000001_000001_000001_000009_000001_000045_000011_000231_000351_000155_000663_002783_003491_005725_025207,
  1_014520_000001_000001_000001_000003_000015_000025_000077_000089_000231_000813_000657_002603_004885_001383_014499,
  1_014534_000001_000003_000005_000005_000009_000021_000101_000181_000449_000491_000737_000803_000659_011771_000545]

def dirRows15_0_16 : List Nat := [
  1_014562_000001_000003_000007_000009_000007_000019_000027_000199_000265_000329_001031_001235_003191_010071_016281,
  1_014576_000001_000001_000007_000011_000027_000055_000003_000127_000503_001003_001041_001953_005835_004851_013485,
  1_014579_000001_000001_000007_000015_000005_000045_000097_000061_000221_000497_001949_003163_004707_008441_001437,
  1_014585_000001_000003_000005_000001_000003_000035_000107_000009_000473_000971_000227_002225_003999_003095_018879,
  1_014586_000001_000001_000001_000009_000021_000059_000021_000001_000041_000435_000575_000491_001839_001095_009727,
  1_014606_000001_000003_000005_000009_000013_000029_000123_000251_000465_000701_001105_000829_000573_011503_011861,
  1_014627_000001_000003_000003_000013_000027_000059_000029_000111_000225_000973_000561_001481_000835_009261_013831,
  1_014630_000001_000001_000001_000007_000017_000003_000097_000211_000333_000315_000571_003523_007305_006461_020139,
  1_014634_000001_000003_000007_000011_000031_000021_000105_000247_000113_000863_001767_000381_004623_008935_007911,
  1_014636_000001_000001_000005_000007_000029_000045_000017_000155_000069_000017_000655_001983_006385_006177_007961,
  1_014647_000001_000003_000003_000015_000031_000015_000063_000081_000309_000115_000393_003445_000689_013963_018887,
  1_014653_000001_000001_000005_000001_000019_000039_000127_000061_000357_000053_000195_002745_007853_005753_003669,
  1_014659_000001_000003_000007_000007_000017_000051_000057_000145_000451_000365_001517_000909_004265_010737_009579,
  1_014671_000001_000001_000003_000013_000003_000037_000121_000103_000257_000047_001685_002951_005753_015379_008899,
  1_014674_000001_000001_000005_000007_000031_000063_000061_000197_000097_000773_000133_001517_003093_014879_022941,
  1_014701_000001_000001_000005_000001_000003_000009_000027_000053_000097_000663_001915_000409_000471_001391_024853,
  1_014716_000001_000001_000001_000007_000021_000053_000069_000005_000187_000571_002023_000997_000323_012059_007071,
  1_014719_000001_000003_000003_000001_000007_000059_000055_000157_000101_000123_001301_003709_004673_003897_028791,
  1_014720_000001_000003_000007_000005_000005_000023_000039_000139_000365_000415_001481_003415_006323_011109_005719,
  1_014725_000001_000003_000005_000003_000005_000011_000023_000143_000243_000229_000183_003367_003187_008151_028351,
  1_014730_000001_000003_000007_000009_000005_000037_000029_000023_000437_000827_000985_002879_007611_001391_019087,
  1_014743_000001_000003_000003_000005_000007_000009_000005_000143_000217_000757_001697_002459_000453_008679_004513,
  1_014747_000001_000003_000005_000005_000011_000033_000003_000143_000293_000921_000185_002461_005547_012247_028591,
  1_014786_000001_000003_000007_000005_000003_000053_000043_000179_000235_000417_001307_001367_003695_012809_001807,
  1_014788_000001_000003_000001_000011_000015_000043_000115_000229_000157_000025_000687_003347_000271_005777_008557,
  1_014792_000001_000003_000007_000005_000027_000037_000055_000135_000209_000047_001603_000957_005785_011141_010407,
  1_014795_000001_000001_000001_000015_000017_000017_000103_000029_000489_000493_000119_001707_003463_001815_032055,
  1_014809_000001_000003_000007_000011_000017_000013_000115_000145_000077_000515_001911_000477_005997_008731_003143,
  1_014831_000001_000003_000001_000013_000031_000041_000073_000091_000231_000001_000455_002023_004691_003613_016329,
  1_014834_000001_000001_000005_000015_000015_000039_000017_000117_000131_000657_001939_002245_002575_000195_025209,
  1_014850_000001_000003_000007_000015_000005_000051_000069_000141_000499_000931_001165_002119_001703_010867_028443,
  1_014855_000001_000001_000001_000015_000013_000045_000045_000103_000115_000177_000651_002545_001417_005349_003385,
  1_014859_000001_000003_000003_000001_000001_000041_000117_000015_000225_000861_000843_002775_004543_006275_014671,
  1_014864_000001_000003_000005_000015_000005_000035_000087_000193_000341_000055_001131_000945_006865_011271_018705,
  1_014876_000001_000003_000005_000009_000013_000035_000071_000197_000079_000351_000003_003939_001105_012455_028921,
  1_014889_000001_000003_000001_000013_000009_000023_000089_000165_000059_000257_001369_000161_006255_002997_019175,
  1_014890_000001_000003_000005_000003_000005_000041_000107_000231_000111_000207_001865_002079_005891_002487_005863,
  1_014898_000001_000003_000007_000015_000003_000003_000105_000235_000263_000991_000367_001885_001769_007805_011909,
  1_014909_000001_000003_000003_000005_000015_000059_000067_000247_000077_000367_001641_001959_001921_005939_017355,
  1_014917_000001_000001_000007_000001_000003_000053_000037_000005_000221_000779_001353_001633_002769_006355_008505,
  1_014924_000001_000001_000007_000013_000011_000013_000073_000227_000115_000523_000355_003127_007545_008409_022335,
  1_014929_000001_000001_000005_000011_000021_000015_000091_000115_000427_000683_000461_002433_006313_004595_024401,
  1_014942_000001_000003_000007_000005_000029_000021_000057_000215_000423_000717_001455_000705_006835_004503_026077,
  1_014951_000001_000001_000001_000015_000003_000033_000025_000227_000381_000477_001023_002751_002229_000631_016903,
  1_014969_000001_000003_000001_000011_000009_000017_000059_000073_000053_000671_000251_001729_007593_012473_022533,
  1_014970_000001_000003_000003_000001_000003_000035_000037_000173_000459_000143_000135_003871_002689_008007_004379,
  1_014972_000001_000003_000005_000009_000023_000019_000043_000045_000493_000509_001851_001615_005675_013793_006973,
  1_014982_000001_000003_000003_000015_000005_000017_000077_000085_000451_000753_000579_001057_004851_006017_004195,
  1_014988_000001_000003_000003_000005_000031_000029_000081_000159_000103_000391_000015_000899_004623_005957_031961,
  1_014994_000001_000001_000001_000007_000017_000057_000081_000017_000177_000633_000049_002793_005229_005995_009491,
  1_015005_000001_000001_000007_000015_000017_000019_000065_000057_000189_000239_001229_000929_002681_012845_029311,
  1_015016_000001_000003_000001_000011_000013_000047_000061_000203_000383_000875_000943_000139_004217_008279_001047,
  1_015024_000001_000003_000007_000013_000023_000007_000001_000069_000047_000537_001325_003101_000685_014057_019953,
  1_015030_000001_000003_000003_000001_000001_000007_000039_000077_000047_000755_000527_002985_005433_015095_027741,
  1_015048_000001_000001_000007_000005_000023_000057_000079_000155_000081_000937_001071_003929_001655_003831_017351,
  1_015054_000001_000003_000007_000001_000003_000041_000013_000235_000207_000487_001883_002247_001231_002751_015615,
  1_015066_000001_000001_000007_000001_000021_000057_000095_000191_000119_000483_000283_002221_005665_014819_026097,
  1_015071_000001_000003_000001_000001_000009_000059_000027_000051_000393_000031_000925_000715_007705_014885_028767,
  1_015072_000001_000001_000003_000003_000003_000061_000109_000131_000113_000249_001331_002521_002973_006375_020093,
  1_015075_000001_000003_000007_000009_000031_000037_000125_000245_000237_000245_000111_000379_007495_015531_002325,
  1_015119_000001_000003_000007_000013_000021_000021_000057_000021_000449_000969_000417_002999_000509_000639_007797,
  1_015121_000001_000003_000007_000007_000007_000029_000011_000175_000055_000705_000891_000863_003021_010071_010267,
  1_015133_000001_000001_000003_000013_000019_000017_000127_000057_000449_000579_000337_000899_001235_011269_004245,
  1_015138_000001_000001_000001_000011_000029_000061_000035_000075_000249_000683_000287_000045_003277_007521_002073,
  1_015143_000001_000003_000005_000005_000015_000025_000077_000063_000063_000801_001387_001533_002185_010899_028381,
  1_015170_000001_000003_000001_000001_000021_000049_000003_000249_000419_000575_000087_003749_002523_016125_009483,
  1_015194_000001_000001_000001_000011_000021_000043_000085_000211_000449_000439_001495_001841_004765_015253_001467,
  1_015212_000001_000003_000003_000015_000003_000037_000031_000243_000187_000995_001103_002723_001523_015967_028649,
  1_015223_000001_000001_000005_000011_000009_000011_000017_000087_000335_000125_001079_001657_001237_008059_029833,
  1_015229_000001_000003_000001_000003_000003_000041_000035_000037_000033_000061_000505_003203_000005_000101_008571,
  1_015254_000001_000001_000003_000011_000009_000011_000085_000235_000261_000473_000109_002127_005745_006389_007431,
  1_015263_000001_000001_000005_000015_000003_000055_000077_000097_000017_000193_001267_003063_006531_009797_008639,
  1_015270_000001_000001_000005_000005_000025_000041_000079_000083_000485_000697_000149_001023_000089_006115_015227,
  1_015273_000001_000001_000003_000015_000001_000009_000073_000251_000033_000599_001017_000353_004305_016033_029663,
  1_015287_000001_000003_000007_000015_000003_000001_000089_000039_000125_000337_001445_003131_003685_009849_025829,
  1_015299_000001_000003_000007_000003_000019_000001_000063_000179_000349_000135_000185_002977_002527_015087_018133,
  1_015301_000001_000001_000003_000003_000023_000007_000091_000221_000325_000723_000345_000081_008077_005501_008453,
  1_015306_000001_000001_000003_000009_000007_000003_000013_000173_000479_000161_001989_003255_002069_006717_000559,
  1_015313_000001_000003_000003_000005_000009_000061_000093_000203_000277_000367_001141_000981_004745_012625_021003,
  1_015320_000001_000003_000005_000005_000027_000017_000005_000211_000403_000701_000005_003091_004611_005615_023667,
  1_015323_000001_000001_000003_000001_000021_000061_000125_000077_000057_000463_001499_000791_002087_002805_018829,
  1_015329_000001_000003_000005_000003_000011_000041_000125_000231_000119_000837_000831_001331_007439_002381_003759,
  1_015332_000001_000003_000001_000011_000019_000059_000117_000107_000443_000699_000315_001491_002581_015871_017159,
  1_015341_000001_000003_000005_000011_000005_000009_000121_000035_000209_000877_000527_003493_004657_016093_017589,
  1_015359_000001_000001_000007_000015_000009_000043_000119_000029_000381_000479_001443_003171_005053_009625_021161,
  1_015361_000001_000001_000003_000005_000015_000021_000031_000223_000083_000399_001529_003605_006343_010469_010099,
  1_015364_000001_000001_000003_000005_000005_000045_000023_000123_000353_000971_000085_003069_003245_006569_013241,
  1_015367_000001_000001_000001_000003_000025_000049_000005_000077_000491_000881_000993_001195_007677_005709_010807,
  1_015379_000001_000003_000003_000003_000005_000049_000127_000255_000183_000583_001599_000987_007281_007149_028507,
  1_015391_000001_000001_000005_000001_000013_000055_000055_000157_000197_000025_001971_003161_003903_008919_013563,
  1_015415_000001_000003_000007_000009_000003_000037_000079_000193_000025_000103_000843_002651_006341_002653_024337,
  1_015416_000001_000001_000007_000003_000025_000049_000099_000139_000045_000211_002033_002331_007037_007177_001755,
  1_015419_000001_000003_000007_000003_000005_000019_000127_000135_000403_000221_000141_001065_003935_002745_025979,
  1_015433_000001_000001_000003_000003_000031_000023_000111_000037_000261_000007_000835_002379_007927_008181_023751,
  1_015469_000001_000003_000007_000015_000001_000039_000079_000003_000103_000427_001917_000809_005039_000689_001939,
  1_015478_000001_000001_000001_000015_000029_000037_000039_000243_000149_000353_000763_003405_005751_009441_006653,
  1_015481_000001_000003_000003_000011_000001_000057_000125_000151_000445_000423_000841_002265_005017_015863_013057,
  1_015482_000001_000003_000005_000013_000011_000049_000061_000159_000211_000917_000561_001903_003985_011117_028969,
  1_015498_000001_000003_000005_000013_000029_000005_000035_000051_000091_000291_000009_003713_003341_004551_012085,
  1_015505_000001_000003_000003_000001_000001_000039_000111_000141_000319_000179_001709_001605_005063_013279_010003]

def dirRows15_0_17 : List Nat := [
  1_015517_000001_000001_000003_000009_000007_000059_000091_000041_000343_000475_001669_002311_005141_012661_025847,
  1_015518_000001_000003_000005_000009_000009_000011_000049_000221_000001_000243_000791_000229_000503_000373_019189,
  1_015527_000001_000001_000005_000011_000017_000013_000045_000057_000215_000491_001601_002183_003713_000429_022007,
  1_015528_000001_000001_000003_000011_000031_000061_000023_000237_000261_000955_001085_001541_002601_000909_007749,
  1_015545_000001_000001_000003_000009_000013_000011_000121_000173_000177_000551_001757_002745_002265_004611_000743,
  1_015548_000001_000001_000003_000015_000023_000043_000107_000239_000463_000369_001857_001073_001247_001029_022557,
  1_015554_000001_000001_000003_000011_000023_000035_000089_000093_000041_000941_001141_002339_001423_008007_028685,
  1_015565_000001_000003_000005_000013_000029_000007_000079_000015_000059_000145_001237_002215_001257_012621_031101,
  1_015577_000001_000001_000003_000007_000013_000055_000057_000229_000205_001009_000341_003901_005189_000957_032587,
  1_015580_000001_000003_000007_000011_000001_000001_000041_000007_000365_000407_001609_001423_006483_005171_032519,
  1_015587_000001_000003_000007_000003_000017_000031_000125_000027_000125_000335_001395_002639_000329_002549_014449,
  1_015601_000001_000003_000003_000007_000019_000045_000011_000073_000123_000179_001685_003385_002379_003387_016793,
  1_015604_000001_000003_000007_000005_000031_000025_000047_000153_000121_000453_000935_003953_002081_012145_024979,
  1_015611_000001_000001_000007_000013_000025_000011_000065_000003_000277_000237_001129_001801_004165_009065_018747,
  1_015616_000001_000001_000007_000007_000013_000005_000037_000253_000507_000645_001355_003401_006707_006329_011237,
  1_015619_000001_000001_000003_000015_000017_000049_000003_000233_000407_000451_000069_003859_003171_012303_021031,
  1_015625_000001_000001_000003_000003_000009_000053_000119_000117_000401_000903_001449_003639_004083_002095_022085,
  1_015633_000001_000003_000007_000015_000005_000061_000117_000193_000137_000431_000195_004019_003047_005049_014281,
  1_015674_000001_000001_000001_000015_000017_000019_000029_000083_000449_000257_001105_001949_001749_003459_006343,
  1_015681_000001_000001_000001_000015_000023_000039_000061_000219_000109_000365_000863_001813_006673_015999_005101,
  1_015691_000001_000001_000005_000005_000013_000011_000037_000151_000365_000719_001233_002425_001285_001721_001205,
  1_015693_000001_000003_000003_000003_000007_000053_000109_000153_000045_000425_001741_001229_004405_008071_025155,
  1_015696_000001_000003_000001_000001_000001_000013_000039_000049_000413_000077_001367_002553_005563_007659_003467,
  1_015712_000001_000001_000005_000009_000003_000049_000023_000011_000445_000121_001505_000877_004137_001809_002429,
  1_015717_000001_000001_000001_000011_000021_000013_000093_000033_000493_000805_000775_002939_002961_013625_031879,
  1_015724_000001_000001_000007_000005_000001_000059_000063_000131_000373_000023_000337_002107_005315_004889_022851,
  1_015727_000001_000001_000003_000013_000021_000047_000015_000131_000353_000793_001891_001757_005793_001147_023697,
  1_015730_000001_000003_000005_000013_000007_000059_000025_000135_000259_000109_001835_000429_008153_007355_000145,
  1_015746_000001_000003_000003_000013_000009_000047_000121_000089_000089_000635_001079_002353_004803_011369_012653,
  1_015751_000001_000003_000005_000009_000023_000039_000049_000231_000105_000603_000613_002021_006073_011819_010595,
  1_015760_000001_000003_000007_000007_000007_000019_000019_000155_000347_000387_001459_003793_000619_014437_002455,
  1_015770_000001_000001_000001_000015_000021_000035_000019_000185_000483_000425_000479_003429_005403_010791_014219,
  1_015782_000001_000001_000003_000011_000005_000051_000105_000063_000493_000677_001457_002865_005619_009321_019583,
  1_015791_000001_000001_000003_000003_000023_000001_000077_000177_000263_000289_001567_003837_005359_003269_016023,
  1_015796_000001_000001_000007_000003_000013_000061_000079_000077_000051_000953_001417_000795_004467_002981_025131,
  1_015808_000001_000001_000005_000013_000023_000013_000029_000185_000337_000007_000149_003609_008119_009545_016579,
  1_015814_000001_000003_000001_000005_000023_000009_000123_000015_000099_000055_001021_003709_001521_015189_022193,
  1_015825_000001_000003_000007_000009_000013_000041_000039_000045_000049_000181_001587_003213_001037_014775_003333,
  1_015828_000001_000001_000001_000007_000029_000055_000059_000031_000411_000601_000191_000283_003211_007951_007919,
  1_015835_000001_000001_000007_000007_000021_000047_000007_000193_000343_000831_001267_003289_001015_013093_002717,
  1_015844_000001_000003_000007_000001_000017_000009_000097_000019_000279_000827_001699_003573_003137_003535_017791,
  1_015847_000001_000001_000005_000011_000027_000015_000103_000135_000035_000625_001575_000097_007013_013353_019333,
  1_015853_000001_000003_000003_000007_000017_000013_000049_000135_000435_000743_001799_002655_004839_002893_031153,
  1_015856_000001_000001_000005_000001_000003_000041_000001_000195_000053_000803_001575_002939_003873_010495_005211,
  1_015877_000001_000003_000001_000015_000019_000019_000037_000059_000355_000483_000685_003899_004645_015127_003479,
  1_015878_000001_000001_000005_000003_000025_000009_000009_000229_000101_000631_001165_004091_003723_010655_009463,
  1_015887_000001_000003_000005_000015_000005_000013_000091_000061_000019_000469_001675_003331_003121_003435_004111,
  1_015908_000001_000001_000007_000001_000031_000061_000023_000083_000165_000551_001097_003825_005385_004723_003635,
  1_015917_000001_000003_000007_000015_000009_000031_000011_000121_000503_000855_000561_001647_001229_001147_015997,
  1_015923_000001_000003_000007_000013_000021_000047_000041_000195_000197_000719_001263_003609_007515_002659_030713,
  1_015930_000001_000001_000001_000007_000031_000061_000101_000101_000479_000571_000605_000301_006633_015587_023665,
  1_015937_000001_000003_000007_000003_000025_000039_000035_000225_000135_000463_000053_000709_005129_004135_010421,
  1_015958_000001_000001_000005_000013_000019_000055_000107_000015_000163_000287_000673_000899_005197_004619_003465,
  1_015977_000001_000003_000003_000005_000021_000049_000015_000105_000283_000877_001875_001079_003431_013053_026599,
  1_015991_000001_000001_000007_000001_000001_000001_000095_000113_000119_000575_001159_002325_006895_012177_004369,
  1_016007_000001_000001_000001_000011_000025_000025_000083_000207_000301_000729_001947_002321_003621_015707_011303,
  1_016011_000001_000001_000005_000005_000007_000063_000083_000105_000211_000175_001817_002883_005385_007437_024865,
  1_016014_000001_000003_000007_000005_000023_000039_000019_000211_000151_000295_000573_000223_005065_006345_023187,
  1_016021_000001_000001_000007_000011_000015_000031_000089_000123_000057_000695_000685_001799_000659_009929_022933,
  1_016022_000001_000001_000007_000007_000019_000017_000027_000137_000117_000141_001481_000869_007061_003073_019671,
  1_016028_000001_000003_000003_000011_000009_000019_000123_000093_000039_000517_000883_003769_002267_008089_006617,
  1_016035_000001_000003_000001_000007_000009_000061_000051_000241_000319_000853_001239_000899_000105_001677_029351,
  1_016041_000001_000001_000007_000015_000013_000059_000085_000175_000223_000087_000905_003175_003405_003489_018475,
  1_016056_000001_000001_000001_000015_000001_000055_000079_000097_000315_000605_000851_004015_003689_009371_031523,
  1_016069_000001_000001_000005_000015_000001_000039_000091_000027_000211_000881_001375_002307_005791_010185_023093,
  1_016076_000001_000003_000001_000005_000003_000017_000059_000219_000105_000623_000021_002843_003427_004799_003793,
  1_016081_000001_000003_000003_000007_000021_000055_000017_000029_000397_000093_001981_004047_000935_005971_014589,
  1_016087_000001_000001_000003_000009_000005_000057_000063_000027_000373_000815_000167_000205_000367_004945_030041,
  1_016088_000001_000001_000005_000009_000007_000003_000069_000035_000197_000309_001729_003735_001523_010427_026253,
  1_016110_000001_000001_000003_000007_000007_000049_000035_000189_000297_000311_002025_000305_003863_014393_002533,
  1_016112_000001_000003_000003_000009_000017_000031_000005_000017_000167_000601_000909_003149_002533_012123_025325,
  1_016117_000001_000003_000005_000003_000011_000041_000069_000199_000079_000611_000133_003519_005955_004609_027403,
  1_016150_000001_000003_000003_000013_000003_000017_000053_000165_000361_000797_001447_000869_006707_006541_032249,
  1_016153_000001_000003_000001_000001_000029_000047_000017_000045_000473_000199_001595_003095_003635_006965_021859,
  1_016160_000001_000001_000003_000009_000001_000015_000059_000163_000091_000811_001087_001707_006743_012643_029901,
  1_016166_000001_000001_000001_000003_000019_000021_000007_000209_000121_000821_000709_001085_005333_007689_028355,
  1_016172_000001_000003_000001_000015_000005_000027_000115_000031_000037_000079_001347_000155_003709_013251_032151,
  1_016190_000001_000003_000007_000015_000027_000027_000127_000231_000137_000205_001665_001461_000299_002797_000879,
  1_016195_000001_000001_000001_000007_000013_000003_000127_000013_000253_000481_001435_001895_002665_007611_017761,
  1_016204_000001_000001_000003_000007_000007_000021_000071_000247_000301_000183_001785_000331_004835_002251_004493,
  1_016216_000001_000003_000007_000009_000009_000001_000077_000169_000103_000647_001959_001847_005803_003421_015915,
  1_016222_000001_000003_000001_000007_000019_000017_000081_000045_000263_000549_001607_002177_001117_014427_016451,
  1_016228_000001_000001_000007_000015_000027_000025_000027_000027_000033_000813_001667_000253_002749_000927_029707,
  1_016245_000001_000001_000007_000003_000017_000029_000013_000067_000417_000303_000019_003809_007225_012775_003933,
  1_016255_000001_000001_000001_000011_000013_000041_000077_000217_000281_000659_001099_003047_001619_000525_004313,
  1_016265_000001_000003_000003_000009_000023_000047_000005_000033_000219_000531_000077_002307_001893_008335_008281,
  1_016273_000001_000003_000007_000003_000003_000035_000027_000249_000159_000495_000431_003001_001475_011505_015693,
  1_016276_000001_000001_000005_000009_000021_000049_000043_000159_000465_000959_000179_000993_000121_011569_021027,
  1_016283_000001_000003_000001_000005_000001_000061_000009_000221_000231_000055_000191_002829_003331_008911_015109,
  1_016295_000001_000001_000007_000001_000007_000035_000067_000097_000159_000191_000935_003151_006397_010751_001835,
  1_016304_000001_000001_000001_000007_000015_000039_000127_000163_000437_000333_000829_000753_008151_013239_000523,
  1_016313_000001_000001_000003_000013_000009_000025_000073_000155_000445_000239_002035_000015_005243_015531_001733,
  1_016319_000001_000003_000007_000015_000005_000025_000003_000055_000117_000057_000783_001509_007043_013159_008557,
  1_016328_000001_000003_000005_000001_000021_000055_000089_000119_000199_000079_000161_001597_003263_003335_005757,
  1_016345_000001_000003_000007_000005_000027_000023_000085_000113_000111_000211_000389_001513_002759_007945_000931,
  1_016355_000001_000001_000001_000007_000001_000005_000017_000177_000357_000619_000005_002583_000621_002973_028845,
  1_016364_000001_000003_000007_000013_000011_000021_000047_000099_000421_000279_001541_001305_004571_006127_020735,
  1_016372_000001_000003_000005_000005_000023_000043_000019_000137_000425_000409_001625_002671_004385_003197_025753,
  1_016375_000001_000001_000007_000005_000027_000017_000057_000015_000383_000181_000951_002115_005237_001495_009671,
  1_016382_000001_000003_000003_000011_000009_000001_000053_000127_000375_000499_001487_000121_001465_003175_024337]

/-- Rows with 15 initial numbers, part 0. -/
def dir15_0 : List (List Nat) := [
  dirRows15_0_0,
  dirRows15_0_1,
  dirRows15_0_2,
  dirRows15_0_3,
  dirRows15_0_4,
  dirRows15_0_5,
  dirRows15_0_6,
  dirRows15_0_7,
  dirRows15_0_8,
  dirRows15_0_9,
  dirRows15_0_10,
  dirRows15_0_11,
  dirRows15_0_12,
  dirRows15_0_13,
  dirRows15_0_14,
  dirRows15_0_15,
  dirRows15_0_16,
  dirRows15_0_17]

end SALib.Data
