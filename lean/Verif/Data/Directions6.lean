/-! # Direction-number table, rows 13424 to 16023

Generated from `src/SALib/sample/directions.py` lines 13426-16025.  One row per line: a leading 1, then
every number of the row padded to six digits (so the row `(7, 1, 1, 7, 11, 19)` is
`1_000007_000001_000001_000007_000011_000019`).  Rows are grouped by the number `s` of initial numbers. -/

namespace SALib.Data

def dirRows18_0_0 : List Nat := [
  1_000019_000001_000003_000005_000013_000023_000027_000031_000179_000121_000597_000829_004003_002487_003977_003087_026791_028305_138357,
  1_000031_000001_000001_000005_000005_000005_000039_000095_000117_000461_000117_000109_002571_007651_012361_017921_000555_033353_186427,
  1_000038_000001_000001_000003_000013_000023_000047_000089_000125_000271_000609_000215_003861_006883_003217_002547_054943_060565_215939,
  1_000061_000001_000001_000007_000015_000025_000061_000047_000093_000219_000919_001551_001417_002753_004353_009201_046423_031227_150649,
  1_000064_000001_000001_000001_000003_000029_000039_000011_000061_000137_000809_000147_002715_005455_009431_005725_046135_118193_054099,
  1_000109_000001_000001_000003_000001_000025_000037_000083_000211_000423_000779_001731_002827_000883_010477_028771_021723_114333_056293,
  1_000115_000001_000001_000005_000005_000027_000017_000021_000125_000495_000655_001803_003555_001997_015593_029705_048537_053935_179773,
  1_000118_000001_000001_000007_000005_000019_000063_000055_000015_000469_000769_000967_003047_001713_011655_015313_029965_078857_223391,
  1_000131_000001_000003_000003_000005_000027_000033_000051_000171_000417_000243_001203_003505_002533_002695_000219_057423_005145_143165,
  1_000167_000001_000003_000005_000009_000005_000019_000095_000097_000001_000863_000693_002977_004839_006649_022587_040745_113839_069131,
  1_000200_000001_000003_000005_000001_000031_000039_000053_000085_000509_000005_000359_001947_003279_005433_021763_046713_037289_035911,
  1_000241_000001_000003_000007_000013_000017_000035_000059_000063_000095_000667_001775_002165_007861_015731_012159_036179_115457_184819,
  1_000244_000001_000003_000003_000015_000019_000051_000007_000083_000367_000573_000503_000535_000333_013041_007187_014479_057473_242951,
  1_000247_000001_000003_000005_000001_000007_000027_000065_000201_000365_000445_000985_001175_006391_007345_019935_029085_103001_231855,
  1_000261_000001_000003_000005_000013_000015_000061_000095_000125_000135_000217_001787_000417_007641_011825_014531_048497_125087_073279,
  1_000265_000001_000001_000005_000013_000007_000025_000077_000099_000341_000447_001711_000137_002749_003465_026255_000719_102595_112825,
  1_000304_000001_000001_000007_000007_000015_000013_000127_000057_000359_000591_000713_000409_001293_004979_007035_011369_085255_207241,
  1_000314_000001_000003_000003_000005_000001_000045_000123_000183_000297_000375_001269_001197_002389_006269_024549_044643_075893_161509,
  1_000341_000001_000001_000005_000007_000017_000055_000067_000051_000449_000383_002037_000871_001359_015317_022055_004655_018065_258271,
  1_000376_000001_000001_000003_000011_000021_000027_000059_000205_000145_000195_001747_001121_001061_008879_031455_056541_074765_183047,
  1_000395_000001_000001_000005_000015_000001_000011_000069_000157_000013_000185_001355_000467_004383_013103_021679_035169_033427_032113,
  1_000405_000001_000003_000001_000003_000029_000041_000015_000209_000313_000061_001749_002457_001897_015595_024441_039913_040499_005179,
  1_000406_000001_000003_000007_000015_000025_000041_000087_000125_000239_000073_000207_002043_001133_012845_008533_016339_117913_118677,
  1_000443_000001_000001_000003_000015_000025_000009_000015_000097_000395_000099_002017_001003_000847_002535_011753_054769_054011_073541,
  1_000451_000001_000001_000007_000015_000011_000061_000013_000049_000319_000871_000893_000165_003957_008683_031197_039491_058705_213411,
  1_000458_000001_000003_000007_000003_000017_000043_000029_000081_000461_000595_000541_000243_005587_013083_029981_016187_124601_089543,
  1_000460_000001_000001_000005_000011_000007_000005_000061_000043_000445_000115_001705_000419_004627_015063_016053_026249_112243_208711,
  1_000468_000001_000003_000003_000009_000027_000021_000089_000049_000041_000859_000681_002043_007445_009591_013443_036981_066785_227899,
  1_000472_000001_000001_000003_000005_000011_000055_000051_000045_000041_000739_001199_000191_004563_004035_003657_012189_052879_033961,
  1_000482_000001_000001_000001_000003_000017_000059_000047_000217_000389_000783_001501_000517_006311_007903_001371_050617_041723_116473,
  1_000491_000001_000001_000005_000013_000029_000039_000101_000203_000101_000479_001337_002647_006447_000563_002593_016533_122535_025587,
  1_000496_000001_000001_000003_000003_000027_000021_000075_000173_000289_000279_000665_003177_000559_008539_010903_016779_128219_125907,
  1_000524_000001_000001_000001_000011_000027_000001_000061_000247_000113_000585_000331_003443_005939_005213_027289_057057_017349_062359,
  1_000536_000001_000003_000005_000015_000021_000041_000067_000047_000121_000011_000545_003609_007745_003669_009045_008377_097655_099631,
  1_000542_000001_000003_000005_000009_000011_000015_000111_000061_000067_000775_000579_003421_007827_013607_032373_043531_086149_238827,
  1_000557_000001_000001_000001_000001_000009_000045_000079_000153_000331_000399_001777_003515_003363_003499_013461_048651_021731_220611,
  1_000572_000001_000001_000001_000001_000031_000057_000117_000223_000139_000725_001115_003203_008185_011983_020245_055913_036803_068101,
  1_000580_000001_000001_000001_000003_000031_000057_000053_000079_000225_000307_001645_003311_000643_006587_012037_012453_083461_195503,
  1_000592_000001_000003_000001_000007_000023_000025_000065_000233_000273_000097_000037_001563_003635_009299_024367_042761_000055_128675,
  1_000656_000001_000003_000003_000011_000029_000021_000097_000143_000447_000345_000389_000381_001403_000685_000309_011103_069769_194441,
  1_000713_000001_000003_000003_000011_000023_000055_000119_000071_000023_000291_001241_001723_005025_004499_026617_022875_062185_240321,
  1_000719_000001_000001_000007_000011_000019_000063_000031_000131_000393_000099_001061_003805_007477_015357_008269_026067_113349_239333,
  1_000738_000001_000003_000005_000001_000005_000037_000077_000083_000037_000759_001297_003067_005369_005977_007531_049079_094503_192765,
  1_000749_000001_000001_000007_000001_000023_000009_000119_000137_000469_000073_002001_002629_002681_002295_002055_044027_047627_045283,
  1_000752_000001_000003_000001_000007_000031_000017_000061_000137_000241_000325_001417_002383_004171_002495_000215_059593_098495_074727,
  1_000767_000001_000001_000007_000013_000007_000005_000059_000189_000131_000865_001963_001811_005629_016189_016397_058069_072081_191457,
  1_000772_000001_000001_000007_000015_000023_000033_000093_000247_000395_000643_000693_003587_004375_005519_009449_037515_011455_218337,
  1_000782_000001_000001_000003_000001_000027_000063_000113_000091_000477_000055_001461_001547_004743_000699_021639_001815_000169_034239,
  1_000789_000001_000001_000005_000015_000029_000037_000019_000019_000247_000771_000695_000319_001779_010553_016165_060507_087161_086967,
  1_000830_000001_000001_000007_000001_000025_000061_000013_000167_000251_000861_001717_001533_007323_003945_020879_037759_129689_035901,
  1_000838_000001_000003_000003_000007_000007_000061_000011_000025_000187_000949_001393_001743_000745_016313_005293_016921_017619_237705,
  1_000916_000001_000003_000005_000011_000007_000027_000011_000107_000299_000711_000149_001581_007747_014285_006411_052209_079043_061117,
  1_000920_000001_000001_000005_000001_000017_000019_000091_000185_000053_000699_001185_004007_001099_001965_020239_019547_120859_234149,
  1_000936_000001_000001_000005_000005_000013_000061_000117_000187_000149_000957_000837_003549_006221_000501_024755_047975_067007_012329,
  1_000991_000001_000001_000003_000015_000021_000041_000055_000081_000397_000403_001699_001057_006125_011987_003103_043361_021277_156577,
  1_000998_000001_000001_000005_000011_000005_000027_000005_000177_000387_000859_000809_003919_004085_001535_006009_013265_003065_217945,
  1_001016_000001_000003_000001_000013_000015_000057_000107_000081_000437_000305_000879_001691_003685_011415_003749_046999_113933_010515,
  1_001024_000001_000001_000007_000013_000009_000043_000059_000223_000189_000329_000829_002033_001835_008255_008121_046463_061433_086453,
  1_001053_000001_000003_000001_000009_000011_000049_000063_000125_000011_000987_002017_002623_004753_013889_000057_024755_108489_175383,
  1_001081_000001_000001_000001_000003_000025_000033_000039_000151_000405_000657_001755_000957_005557_007611_025839_051385_092713_064009,
  1_001090_000001_000003_000007_000009_000017_000017_000115_000089_000225_000715_001085_000543_001047_015053_014359_043301_031455_156555,
  1_001125_000001_000001_000007_000011_000011_000021_000115_000005_000371_001003_001053_001713_005921_007277_000799_062483_028079_222319,
  1_001135_000001_000001_000003_000003_000031_000015_000127_000213_000459_000229_001477_001863_001021_014881_016299_005953_121455_049659,
  1_001143_000001_000001_000005_000009_000003_000039_000087_000219_000057_000479_000069_002777_008105_011975_014743_026205_093303_045311,
  1_001150_000001_000001_000005_000013_000003_000043_000055_000139_000019_000715_002035_002993_002945_009075_006275_032233_103127_049523,
  1_001154_000001_000003_000001_000013_000019_000031_000109_000211_000261_000231_000697_000383_002173_014617_011877_037009_005485_236549,
  1_001171_000001_000001_000005_000003_000005_000023_000091_000115_000369_000011_001021_000519_000655_004461_023743_056981_051687_114845,
  1_001174_000001_000003_000007_000009_000029_000023_000019_000127_000017_000369_001537_002705_004993_001869_015447_028127_073609_097683,
  1_001202_000001_000001_000003_000009_000017_000061_000097_000187_000213_000861_000725_003205_000103_012729_002915_028389_083123_124065,
  1_001213_000001_000003_000001_000001_000005_000061_000047_000187_000471_000137_001595_000707_002449_014315_016409_041467_037533_001649,
  1_001225_000001_000003_000005_000005_000007_000039_000001_000245_000361_000043_001259_003149_003449_015723_006225_027445_080529_215349,
  1_001233_000001_000003_000003_000011_000017_000027_000037_000047_000157_000345_001437_003219_005663_007299_023925_034067_102379_042767,
  1_001234_000001_000003_000005_000013_000021_000059_000043_000189_000017_000303_001949_003627_003495_007981_018115_034221_043511_255257,
  1_001252_000001_000003_000007_000015_000003_000029_000081_000243_000321_000853_000595_002451_001713_011859_027689_012849_024505_009547,
  1_001255_000001_000003_000001_000003_000007_000007_000089_000183_000051_000901_000253_002421_007453_015827_021451_058653_051933_239113,
  1_001294_000001_000001_000007_000003_000021_000059_000093_000025_000219_000805_001699_003777_003683_005351_005481_044797_000651_032161,
  1_001349_000001_000003_000007_000005_000031_000015_000015_000167_000305_000545_000331_003765_008191_005763_016965_007239_073735_001049,
  1_001354_000001_000003_000001_000015_000013_000019_000059_000107_000213_000039_001547_003413_006175_016195_004635_008945_060301_196697,
  1_001378_000001_000001_000003_000001_000029_000017_000051_000061_000261_000951_000643_002329_002235_009171_011265_003523_089781_227125,
  1_001383_000001_000003_000005_000001_000001_000051_000075_000199_000479_000899_001425_003697_002039_004503_011789_016853_094607_236887,
  1_001387_000001_000003_000001_000009_000019_000043_000111_000041_000385_000677_001067_003391_007819_013663_017713_010155_124243_056005,
  1_001392_000001_000003_000005_000003_000015_000003_000105_000023_000307_000955_000843_001277_006697_011903_008901_036129_051685_251115,
  1_001402_000001_000003_000001_000005_000027_000035_000095_000057_000207_000049_001559_000171_004703_000511_004169_023241_111447_173109,
  1_001420_000001_000003_000001_000013_000023_000005_000031_000015_000223_000673_001333_002243_002479_007489_031891_033909_096803_227027,
  1_001428_000001_000003_000005_000011_000005_000045_000019_000013_000367_000475_001719_003947_005295_002319_020697_000181_016925_080239,
  1_001437_000001_000001_000005_000013_000015_000047_000089_000015_000153_000073_000523_003529_005401_015881_013779_032123_082347_058749,
  1_001448_000001_000003_000005_000007_000005_000007_000123_000217_000261_000065_000685_002175_003289_007473_017857_048335_094183_216857,
  1_001459_000001_000003_000007_000013_000007_000023_000085_000025_000231_000019_001179_002705_006433_010827_001969_051521_076775_260291,
  1_001473_000001_000003_000003_000013_000009_000039_000005_000141_000475_000777_001809_001975_002347_012611_028303_015239_045429_170015,
  1_001507_000001_000001_000007_000007_000031_000031_000039_000019_000317_000897_000739_000275_002261_016013_001123_033181_096603_037563,
  1_001516_000001_000001_000007_000013_000031_000055_000087_000239_000193_000435_000625_002153_003979_015537_019937_050621_048273_031381,
  1_001528_000001_000001_000001_000015_000001_000057_000073_000237_000361_000749_000379_002511_000501_010783_002787_036983_012393_014345,
  1_001573_000001_000001_000001_000003_000025_000033_000085_000025_000083_000939_000139_002601_006385_016041_028463_038977_028163_232165,
  1_001592_000001_000003_000005_000003_000009_000019_000119_000171_000499_000019_000569_000353_001619_006235_024431_047401_048125_168819,
  1_001597_000001_000001_000001_000003_000009_000027_000121_000137_000411_000391_001437_001339_007475_003889_015451_034809_069807_162851,
  1_001654_000001_000003_000005_000011_000031_000039_000041_000003_000171_000035_000081_002713_001077_010697_012343_052133_052825_152255,
  1_001663_000001_000001_000003_000011_000017_000051_000083_000019_000357_000207_000897_002167_001333_004111_029295_065371_073447_061765,
  1_001730_000001_000001_000003_000007_000009_000059_000017_000135_000365_000931_001203_000277_005531_004213_012969_002617_000591_154539,
  1_001739_000001_000003_000007_000011_000001_000053_000031_000049_000135_000603_000227_000911_007371_008559_027195_033065_071351_245255,
  1_001741_000001_000001_000007_000001_000015_000005_000031_000135_000197_000791_001531_002567_002545_015515_025417_027431_015571_176829]

def dirRows18_0_1 : List Nat := [
  1_001753_000001_000003_000001_000001_000015_000007_000089_000217_000505_000859_001329_002285_007921_011839_007699_056867_112483_003895,
  1_001783_000001_000003_000001_000003_000027_000057_000037_000117_000491_000815_000275_000381_007443_003297_001523_034211_097589_232261,
  1_001804_000001_000001_000003_000003_000029_000063_000069_000153_000297_000423_001435_003927_007265_013223_017607_021201_057929_073037,
  1_001807_000001_000003_000001_000003_000023_000041_000001_000167_000121_000217_000973_002149_003807_009895_029635_001625_099829_218541,
  1_001832_000001_000003_000005_000007_000031_000033_000053_000165_000051_000119_000007_001655_006521_005481_009503_006833_080483_252111,
  1_001850_000001_000001_000007_000001_000005_000063_000025_000219_000165_000893_001665_002789_001113_009277_003151_012625_082403_059749,
  1_001852_000001_000003_000007_000003_000021_000013_000127_000127_000145_000993_000715_001947_007501_004385_011759_002179_026039_028027,
  1_001881_000001_000003_000005_000009_000023_000027_000123_000001_000231_000709_001615_001433_005991_001045_016269_000123_110249_154819,
  1_001894_000001_000001_000001_000005_000017_000011_000123_000151_000387_000905_000991_001571_004463_006765_031905_059307_075175_204571,
  1_001927_000001_000003_000001_000011_000027_000049_000001_000181_000077_001023_000807_003479_007965_004633_017495_005991_077081_249343,
  1_001952_000001_000003_000001_000001_000013_000053_000105_000079_000269_000173_001319_001695_001215_003651_025063_034949_077243_214671,
  1_001969_000001_000001_000001_000001_000003_000019_000103_000233_000001_000507_000721_001797_005025_000405_013027_023693_089963_025771,
  1_001999_000001_000003_000005_000009_000021_000053_000001_000241_000405_000707_001807_003615_001199_011155_027741_053931_055091_248677,
  1_002018_000001_000003_000005_000007_000027_000027_000039_000077_000475_000845_001393_003779_005261_013017_013517_018595_064485_180577,
  1_002047_000001_000001_000003_000005_000007_000021_000095_000059_000203_000233_001167_003457_003965_004321_014885_006335_078353_039341,
  1_002066_000001_000001_000007_000013_000027_000019_000027_000133_000419_000507_000945_003595_000131_007981_031451_062347_019151_256127,
  1_002068_000001_000003_000007_000003_000007_000015_000009_000173_000257_000983_000223_002881_006911_003681_026183_038943_112171_148627,
  1_002093_000001_000003_000003_000015_000005_000049_000091_000205_000303_000183_000775_003841_004943_014417_023013_059337_085835_181771,
  1_002105_000001_000003_000005_000009_000021_000001_000117_000027_000509_000263_001215_000893_006677_003275_020831_005045_127323_062589,
  1_002116_000001_000001_000001_000003_000017_000061_000077_000239_000379_000649_001151_002359_002659_013853_030589_055873_050359_184125,
  1_002149_000001_000001_000007_000005_000017_000033_000095_000111_000245_000873_001721_003079_007753_012889_027107_008267_119413_249045,
  1_002201_000001_000001_000001_000015_000013_000023_000059_000169_000449_000283_000913_002099_005337_004307_003701_016395_112987_014183,
  1_002228_000001_000001_000005_000003_000005_000015_000003_000249_000097_000849_001551_003437_001247_010915_024073_053723_040345_037215,
  1_002245_000001_000001_000001_000005_000021_000059_000109_000079_000009_000827_001329_000405_003821_008415_011239_001003_078967_112627,
  1_002246_000001_000001_000001_000011_000021_000007_000021_000045_000327_000365_000865_001409_001273_015675_021425_045367_022279_240943,
  1_002283_000001_000003_000003_000007_000003_000019_000083_000163_000381_000547_000195_001537_007905_009057_001309_041135_118857_101725,
  1_002288_000001_000001_000005_000009_000011_000019_000107_000247_000309_000343_001697_000699_007137_012815_018405_042673_000505_104801,
  1_002320_000001_000003_000005_000003_000013_000043_000055_000015_000441_000843_001153_003739_000067_011053_030985_055329_057301_190991,
  1_002326_000001_000001_000005_000003_000023_000041_000009_000239_000227_000145_001895_002645_000945_006421_002859_016173_097043_234649,
  1_002386_000001_000003_000001_000003_000023_000047_000057_000207_000441_000279_001951_003041_002465_006143_027669_041171_089627_002489,
  1_002392_000001_000003_000001_000011_000007_000009_000019_000051_000345_000187_001699_001483_000015_010321_025277_034889_085225_259071,
  1_002395_000001_000001_000001_000015_000027_000015_000079_000051_000407_000757_000611_003955_001123_014659_011273_056639_064727_183077,
  1_002413_000001_000003_000007_000001_000013_000061_000089_000157_000029_000561_000791_000995_004233_011351_016335_047041_108671_120115,
  1_002419_000001_000003_000003_000015_000017_000035_000015_000223_000057_000007_000961_003327_007287_005537_026231_003289_106555_109781,
  1_002441_000001_000003_000007_000015_000017_000003_000025_000121_000349_000995_001353_002991_003071_003583_026173_042343_060495_044035,
  1_002466_000001_000003_000001_000011_000005_000005_000083_000249_000427_000173_001733_000045_003277_007911_018091_061305_130251_031849,
  1_002477_000001_000001_000001_000009_000003_000023_000023_000127_000371_001011_000573_001769_001707_015351_030077_061139_122963_203481,
  1_002485_000001_000001_000001_000013_000027_000041_000097_000029_000461_000207_001393_000707_005633_007155_013455_007305_107539_136413,
  1_002492_000001_000001_000001_000009_000003_000013_000061_000115_000297_000333_001679_000127_008049_003129_031845_040039_077087_006831,
  1_002495_000001_000003_000003_000011_000027_000025_000049_000029_000423_000193_001955_002927_005679_003537_016911_047065_126803_129957,
  1_002498_000001_000001_000001_000003_000021_000031_000025_000187_000301_000883_001301_000415_001515_014761_000227_024377_054415_064553,
  1_002504_000001_000003_000007_000007_000003_000005_000069_000221_000357_000587_001387_003719_005355_010569_014731_022515_107237_001673,
  1_002515_000001_000001_000003_000015_000027_000007_000089_000023_000213_000655_000779_001641_001793_001499_027279_059423_056715_090313,
  1_002521_000001_000003_000003_000007_000003_000033_000085_000181_000509_000327_000353_001625_004995_015627_017071_031885_122423_100337,
  1_002561_000001_000003_000005_000009_000007_000039_000045_000157_000279_000211_001163_003283_004419_010187_022397_042119_025105_163925,
  1_002579_000001_000003_000003_000015_000017_000037_000075_000065_000501_000765_001171_002451_000309_000551_015573_065497_106435_020817,
  1_002604_000001_000001_000003_000001_000013_000001_000079_000117_000005_000285_000953_002401_002479_015765_025677_063611_091807_078153,
  1_002657_000001_000001_000005_000015_000001_000007_000123_000159_000217_000307_001779_002625_000101_013887_031721_055769_094899_183427,
  1_002681_000001_000003_000005_000005_000011_000013_000059_000205_000221_000871_000753_000823_000547_011055_031621_054379_023631_137027,
  1_002691_000001_000003_000003_000007_000005_000017_000007_000031_000037_000237_001633_000969_004123_006643_028499_003277_130223_037465,
  1_002731_000001_000003_000007_000005_000029_000041_000065_000159_000487_000061_001217_004093_000487_015257_013379_046641_088043_107425,
  1_002739_000001_000001_000007_000007_000019_000029_000087_000119_000013_000877_000467_002661_007733_009303_020069_008445_126159_069421,
  1_002765_000001_000003_000001_000013_000001_000057_000077_000241_000185_000479_000859_002397_001167_006545_020715_050701_107781_149965,
  1_002790_000001_000001_000005_000001_000001_000003_000019_000031_000473_000685_001455_001537_001843_004051_017475_056717_070257_112815,
  1_002802_000001_000003_000007_000015_000009_000021_000019_000201_000013_000551_001053_001291_003793_007923_030425_055513_030033_070597,
  1_002819_000001_000003_000001_000015_000021_000047_000127_000117_000199_000655_001979_001291_008017_011769_009071_012029_112369_002529,
  1_002891_000001_000003_000005_000001_000015_000003_000025_000199_000101_000997_000597_002485_006509_011913_019573_013985_056165_000249,
  1_002905_000001_000001_000007_000003_000019_000045_000107_000229_000241_000747_001219_003133_003675_004441_013933_064571_095445_250713,
  1_002911_000001_000003_000001_000005_000011_000031_000089_000119_000503_000099_000075_000349_007479_015161_006365_062461_039443_188455,
  1_002912_000001_000001_000005_000013_000025_000031_000065_000237_000259_000329_000089_001283_006033_004401_007655_038837_062367_076555,
  1_002921_000001_000001_000001_000007_000019_000061_000109_000041_000361_000089_000171_002319_003625_008905_024461_036135_028515_101547,
  1_002924_000001_000003_000005_000003_000005_000045_000123_000227_000339_000079_000309_002619_001621_001295_006395_006717_119933_187231,
  1_002945_000001_000001_000001_000003_000003_000045_000091_000225_000269_000475_001159_002599_005087_004141_028375_022413_056235_256559,
  1_002952_000001_000001_000001_000013_000007_000051_000027_000065_000065_000381_000169_001759_004653_009885_025839_019851_004965_249097,
  1_002972_000001_000003_000007_000011_000025_000011_000083_000137_000419_000277_000503_002823_002759_008173_009405_023731_116087_009735,
  1_002986_000001_000001_000005_000005_000027_000017_000123_000145_000041_000085_001099_001087_001465_007063_008585_039427_015479_243967,
  1_003000_000001_000001_000007_000003_000021_000053_000105_000185_000101_000763_000593_002649_003273_005655_012233_011761_027093_121347,
  1_003008_000001_000001_000001_000005_000011_000055_000107_000167_000179_000681_000741_001821_004297_014677_009949_009647_060465_036999,
  1_003011_000001_000001_000001_000007_000025_000043_000095_000071_000161_000517_001475_001989_006273_013295_019681_051773_093523_033441,
  1_003018_000001_000003_000001_000013_000023_000059_000095_000177_000073_000707_000037_000421_003747_014207_017159_004957_020161_026185,
  1_003047_000001_000001_000007_000013_000013_000001_000019_000153_000445_000429_001911_003515_000639_016015_000833_054347_087717_082175,
  1_003071_000001_000003_000005_000009_000001_000009_000115_000087_000341_000651_001583_000807_000559_013579_009647_037277_125555_169655,
  1_003079_000001_000001_000003_000005_000013_000023_000117_000229_000205_000803_001381_002773_007099_004031_000597_037135_011643_092325,
  1_003083_000001_000003_000007_000009_000027_000015_000033_000147_000001_000799_001511_002609_001419_005991_015571_056995_097695_223969,
  1_003086_000001_000003_000001_000003_000017_000009_000017_000189_000407_000355_000765_002545_001079_015253_004785_005187_080775_238775,
  1_003148_000001_000001_000003_000001_000031_000029_000003_000159_000263_000325_000125_002221_006369_005717_013985_033829_021375_134249,
  1_003156_000001_000003_000007_000003_000005_000029_000039_000075_000183_000155_001017_000637_000921_009561_014893_059695_038325_015503,
  1_003194_000001_000001_000003_000013_000009_000031_000043_000071_000241_000661_000325_000357_000431_000903_005039_024535_094241_228605,
  1_003230_000001_000003_000001_000001_000017_000037_000093_000047_000025_000207_000611_000415_006473_015979_002025_019003_008941_248779,
  1_003233_000001_000001_000007_000015_000019_000017_000081_000201_000121_000011_001975_001289_004405_007851_009707_020057_033749_187161,
  1_003254_000001_000001_000003_000005_000029_000031_000047_000099_000435_000795_000947_001299_004011_008315_012827_048071_086567_154655,
  1_003268_000001_000001_000005_000003_000009_000059_000115_000191_000177_000065_001835_003989_001819_014325_008939_025337_016099_200577,
  1_003305_000001_000003_000007_000009_000015_000047_000007_000195_000413_001013_001607_003317_006979_013243_000275_034125_066069_090201,
  1_003323_000001_000001_000003_000003_000029_000003_000051_000137_000341_000393_000897_000351_001937_006793_012551_018873_110949_133925,
  1_003326_000001_000003_000005_000009_000029_000041_000079_000169_000113_000123_001229_001885_006153_001549_031729_041949_074083_041387,
  1_003343_000001_000003_000001_000015_000031_000049_000007_000233_000305_000435_001299_003037_002387_015431_000817_011783_024067_116527,
  1_003345_000001_000003_000005_000013_000007_000017_000049_000033_000133_000045_000689_002381_002649_002433_027535_021755_088611_200585,
  1_003382_000001_000001_000005_000011_000001_000061_000087_000097_000091_000433_000313_002541_005289_005769_017963_005719_012165_146849,
  1_003413_000001_000003_000007_000013_000017_000021_000037_000191_000489_000847_000841_003567_007339_015233_023973_001209_099741_243303,
  1_003420_000001_000003_000001_000001_000005_000021_000011_000039_000069_000751_001679_000143_006187_002963_000695_045763_126749_243841,
  1_003434_000001_000003_000003_000009_000021_000055_000043_000073_000133_000417_000495_002899_005681_013049_030241_044519_019095_030673,
  1_003453_000001_000001_000005_000009_000017_000051_000121_000205_000273_000597_001325_003755_005113_012287_021323_017947_023807_020025,
  1_003472_000001_000001_000007_000007_000021_000011_000025_000033_000207_000013_001639_001971_007401_011771_007879_059027_111981_065451,
  1_003488_000001_000003_000005_000015_000003_000015_000121_000023_000199_000839_000937_003659_005379_002139_031631_017215_065349_157413,
  1_003503_000001_000001_000001_000007_000003_000007_000081_000049_000017_000693_001819_002737_007329_000049_001655_042317_031385_011435,
  1_003506_000001_000003_000005_000015_000025_000051_000121_000133_000457_000159_000869_000855_003529_002691_000147_058621_078379_148519,
  1_003518_000001_000001_000003_000007_000001_000053_000109_000081_000037_000553_001921_003081_002665_012665_013887_001035_016987_048883,
  1_003532_000001_000001_000005_000001_000019_000001_000121_000097_000143_000871_001401_002879_005657_005479_014011_065131_056011_241055,
  1_003543_000001_000001_000007_000005_000009_000021_000009_000043_000331_000183_001313_002495_006905_002763_029567_007579_095169_130937,
  1_003547_000001_000003_000007_000003_000003_000037_000065_000195_000339_000527_001383_003063_007749_011109_008097_027257_107615_134241]

def dirRows18_0_2 : List Nat := [
  1_003573_000001_000001_000001_000005_000025_000025_000063_000179_000135_000065_000169_002709_005435_012119_021549_059847_129639_220163,
  1_003574_000001_000003_000005_000001_000003_000017_000087_000181_000009_000923_000731_003397_007079_003281_010455_035471_020439_206209,
  1_003587_000001_000001_000001_000005_000031_000025_000015_000089_000381_000675_001217_003175_000707_000585_001695_057771_092433_203523,
  1_003632_000001_000003_000005_000015_000005_000007_000009_000087_000461_001017_000869_001541_007833_003117_024917_013917_104797_149045,
  1_003664_000001_000001_000007_000015_000013_000049_000009_000089_000165_000827_000657_001977_007471_015437_025785_001455_052803_198793,
  1_003713_000001_000003_000001_000015_000003_000039_000027_000205_000325_000345_000965_001439_004403_010717_009591_046845_123983_076181,
  1_003726_000001_000003_000001_000001_000025_000023_000097_000135_000367_000179_001563_000075_000455_003517_021539_059565_043449_139495,
  1_003768_000001_000001_000005_000015_000013_000027_000055_000021_000001_000505_001349_000409_002491_005299_015771_059389_110377_209275,
  1_003771_000001_000001_000007_000009_000031_000015_000063_000091_000003_000559_000419_001237_001157_005811_024335_019215_012581_148813,
  1_003810_000001_000001_000007_000013_000023_000003_000081_000127_000033_000931_000867_002905_001011_016207_001543_054309_010611_152733,
  1_003848_000001_000003_000005_000007_000021_000019_000045_000101_000439_000537_000267_000945_008007_009383_013211_021867_005731_150203,
  1_003868_000001_000001_000003_000009_000029_000003_000031_000219_000217_000775_001011_000445_002663_001691_009837_005727_116283_128627,
  1_003896_000001_000003_000003_000003_000021_000001_000097_000239_000457_000925_001923_001693_001187_013437_008529_022081_000633_076109,
  1_003910_000001_000003_000007_000007_000019_000005_000009_000015_000337_000855_001563_003159_002799_004103_002013_047789_077027_022425,
  1_003921_000001_000001_000003_000015_000015_000041_000027_000077_000489_000377_001953_000305_005081_001895_005117_051455_071859_190289,
  1_003928_000001_000001_000005_000007_000007_000007_000013_000025_000115_000657_000223_003185_005327_002559_005147_022237_091933_195429,
  1_003940_000001_000001_000003_000005_000005_000019_000003_000197_000371_000237_000555_002873_003401_003329_029165_004593_111677_244025,
  1_003947_000001_000003_000005_000015_000015_000055_000029_000075_000329_000623_000279_002831_004489_007803_024119_012959_059783_135213,
  1_003949_000001_000003_000005_000013_000031_000021_000093_000077_000401_000353_000893_000917_004813_008027_007847_055315_060213_102763,
  1_004001_000001_000001_000005_000013_000029_000049_000091_000035_000079_000625_001539_000509_000823_002239_030867_021729_033195_038189,
  1_004004_000001_000003_000003_000003_000019_000011_000039_000145_000005_000329_001653_003205_004431_009291_030369_063173_072317_236103,
  1_004022_000001_000003_000003_000015_000027_000009_000111_000191_000249_000845_001845_002097_006529_009559_025757_029085_002615_175759,
  1_004026_000001_000003_000007_000001_000017_000059_000119_000125_000213_000995_000601_002517_001225_002301_013031_040881_031623_165799,
  1_004036_000001_000003_000003_000013_000025_000061_000097_000157_000347_000931_001731_003697_005815_007309_030605_003853_072395_103609,
  1_004073_000001_000001_000007_000005_000023_000013_000051_000117_000495_000683_000777_001629_005683_000801_004907_024935_009457_214131,
  1_004093_000001_000001_000005_000009_000001_000029_000107_000253_000195_000921_000345_001451_002253_012723_000571_012009_034149_140659,
  1_004099_000001_000001_000005_000009_000031_000017_000093_000005_000455_000205_001439_001199_007371_012973_016455_000675_060561_099575,
  1_004120_000001_000003_000003_000003_000031_000037_000115_000049_000031_000285_002029_001369_003443_002411_010367_044859_026737_195703,
  1_004136_000001_000001_000003_000001_000015_000039_000113_000037_000257_000003_000817_002901_004029_012595_030475_034883_109133_092159,
  1_004156_000001_000001_000007_000005_000009_000001_000009_000101_000317_000167_001975_000411_006875_006951_004401_059483_129813_078289,
  1_004176_000001_000001_000007_000009_000009_000005_000073_000007_000057_000907_001887_002923_000961_008521_000873_033791_114485_043081,
  1_004182_000001_000001_000005_000007_000013_000045_000091_000179_000499_000197_001337_001321_005307_015503_020449_060813_097393_255741,
  1_004191_000001_000001_000001_000005_000025_000013_000069_000221_000207_000823_000845_003845_006743_005123_027447_002079_100635_124157,
  1_004198_000001_000003_000005_000011_000013_000039_000121_000209_000137_000063_001479_000323_005347_009797_017785_055541_108713_243347,
  1_004252_000001_000001_000003_000009_000029_000045_000043_000081_000115_000979_000727_000423_001133_008757_027833_039907_104663_033067,
  1_004259_000001_000003_000005_000001_000013_000061_000049_000017_000409_000567_001035_002299_003711_015485_007767_027809_001275_096455,
  1_004261_000001_000001_000005_000009_000005_000033_000013_000009_000505_000459_000747_004079_004271_006925_013933_031349_005793_068381,
  1_004294_000001_000003_000003_000011_000015_000047_000015_000187_000349_000847_000817_003551_006059_006451_032615_001635_108889_048003,
  1_004341_000001_000003_000005_000007_000003_000031_000011_000255_000367_000295_001079_002981_005583_010771_025359_016083_024163_111201,
  1_004348_000001_000003_000005_000005_000007_000005_000127_000019_000343_000849_000287_001471_007299_001209_031349_033473_004989_229181,
  1_004356_000001_000001_000003_000009_000025_000061_000007_000065_000077_000745_001871_002427_003669_008965_011177_005531_115801_034327,
  1_004384_000001_000003_000003_000015_000001_000057_000125_000167_000173_000875_000347_002317_006687_004339_010573_007841_016241_192225,
  1_004389_000001_000003_000001_000003_000015_000037_000045_000189_000075_001017_001919_003401_000329_002539_032697_060801_052017_192611,
  1_004401_000001_000003_000001_000005_000001_000023_000043_000055_000001_000443_001769_001633_005225_006855_005419_065139_022237_017415,
  1_004428_000001_000003_000005_000015_000025_000007_000107_000209_000325_000367_000373_001855_001313_012899_030137_019007_009911_011791,
  1_004431_000001_000003_000007_000013_000003_000057_000123_000093_000279_000469_001817_003409_000565_003997_014119_058341_059691_163323,
  1_004445_000001_000001_000003_000009_000003_000003_000069_000109_000047_000487_001895_002003_007309_009803_009527_052211_031213_041521,
  1_004470_000001_000001_000007_000007_000009_000015_000101_000227_000075_000501_000025_001481_004847_013279_028673_011069_061987_005365,
  1_004473_000001_000003_000001_000001_000025_000005_000047_000125_000097_000969_001077_001185_006033_013927_018149_034255_014353_066323,
  1_004474_000001_000001_000003_000001_000025_000041_000019_000069_000385_000585_001049_003497_003615_013211_018855_061303_115739_042639,
  1_004490_000001_000003_000007_000007_000013_000015_000013_000133_000497_000265_001809_004073_005673_007543_030823_013505_076167_098683,
  1_004509_000001_000001_000005_000005_000003_000059_000047_000191_000419_000505_002035_000329_000553_001561_027885_039767_102611_012689,
  1_004510_000001_000003_000007_000003_000027_000049_000027_000133_000305_000537_000385_000335_002417_014891_031299_026201_124655_150545,
  1_004533_000001_000001_000001_000009_000007_000001_000027_000105_000347_000481_002043_001645_004367_010335_016457_048713_064699_063595,
  1_004548_000001_000001_000003_000003_000007_000057_000125_000209_000299_000525_000591_001265_007557_015113_019319_056269_043919_215435,
  1_004558_000001_000001_000001_000011_000029_000059_000119_000245_000063_000919_001913_003969_000545_001033_020975_061327_036783_124303,
  1_004594_000001_000001_000007_000007_000011_000063_000045_000135_000405_000931_000753_002559_005475_002107_006437_006055_043497_133571,
  1_004596_000001_000003_000001_000013_000031_000039_000039_000141_000231_000083_000069_000473_001095_013617_010909_049861_098029_235003,
  1_004603_000001_000003_000007_000013_000013_000041_000073_000107_000505_000359_000957_001599_007617_001843_025531_063755_096295_167955,
  1_004610_000001_000003_000003_000011_000013_000041_000061_000065_000165_000507_001007_001695_000091_008781_015017_012063_095331_179853,
  1_004619_000001_000003_000007_000007_000029_000019_000007_000095_000303_000641_000581_003539_004495_013549_020195_020845_016961_095053,
  1_004630_000001_000001_000007_000005_000015_000027_000013_000155_000345_000341_001583_002207_002497_006509_024343_003109_071431_184871,
  1_004652_000001_000001_000003_000015_000031_000035_000037_000249_000071_001005_000681_003457_003387_013797_008781_011789_016825_011133,
  1_004658_000001_000003_000007_000011_000005_000029_000121_000139_000077_000859_000163_002749_006401_016303_022659_011817_061667_119993,
  1_004682_000001_000001_000007_000011_000015_000045_000071_000087_000293_000981_001581_002789_004117_012791_013611_000489_074823_071263,
  1_004708_000001_000001_000003_000009_000015_000021_000059_000167_000469_000723_001609_002111_006359_010781_001043_051039_024429_014605,
  1_004736_000001_000003_000003_000009_000013_000025_000001_000043_000061_000869_001919_000601_008003_015841_010141_033187_124991_094205,
  1_004753_000001_000001_000007_000005_000023_000013_000067_000043_000167_000667_001743_002523_002245_009287_008115_064995_121371_188321,
  1_004760_000001_000001_000001_000009_000013_000019_000045_000249_000021_000751_000239_004035_004549_008905_009377_047535_078135_210429,
  1_004781_000001_000001_000003_000007_000005_000043_000013_000227_000075_000785_000631_000205_003475_009735_017867_061407_075897_051151,
  1_004784_000001_000003_000003_000009_000031_000021_000011_000053_000247_000717_001505_003903_003249_003185_029007_048795_043413_158653,
  1_004799_000001_000001_000005_000011_000019_000009_000037_000159_000183_000521_000743_002877_002291_010317_001211_017951_016335_066439,
  1_004807_000001_000001_000003_000007_000003_000041_000015_000113_000125_000391_000201_003841_000255_015381_016801_047219_119691_051811,
  1_004808_000001_000001_000003_000001_000001_000029_000079_000181_000481_000969_000297_000625_007449_005813_005915_020011_044853_231933,
  1_004842_000001_000001_000001_000005_000005_000049_000063_000171_000093_000107_001083_001277_000121_004421_018951_061155_066643_120049,
  1_004882_000001_000003_000007_000005_000025_000059_000111_000197_000459_000217_001819_001603_005581_011361_017721_057475_011171_186577,
  1_004897_000001_000003_000003_000001_000025_000019_000029_000157_000025_000595_000501_002145_007513_010323_011107_013269_021763_009427,
  1_004900_000001_000003_000007_000003_000009_000049_000119_000117_000445_000091_000227_001203_006245_009575_030653_065429_064987_081249,
  1_004922_000001_000001_000005_000005_000005_000005_000077_000077_000425_000789_000467_003931_004815_011195_021939_059513_078547_238035,
  1_004936_000001_000003_000001_000011_000011_000029_000115_000037_000423_000997_001231_003987_005057_014533_018005_051513_071851_258137,
  1_004960_000001_000003_000001_000001_000027_000031_000007_000223_000023_000059_001465_002045_006677_015707_025101_022269_046995_089141,
  1_004970_000001_000001_000001_000005_000021_000007_000115_000133_000407_000373_001495_002551_006947_003309_014903_005683_067345_139381,
  1_004978_000001_000001_000005_000003_000013_000031_000005_000221_000187_000009_000165_002295_001239_005665_014543_003963_004931_008269,
  1_004994_000001_000003_000005_000013_000015_000005_000037_000171_000419_000665_000765_001619_001561_001661_005873_025595_034827_215599,
  1_005003_000001_000003_000001_000015_000013_000033_000045_000107_000275_000771_001105_002895_000187_005173_021179_035047_050825_176775,
  1_005044_000001_000003_000007_000005_000017_000005_000059_000195_000441_000625_001205_000207_004703_010627_017123_061785_100779_258597,
  1_005061_000001_000001_000001_000013_000017_000003_000013_000201_000241_000657_000153_000289_005213_002129_013447_028807_025405_033803,
  1_005107_000001_000003_000001_000009_000019_000009_000051_000133_000159_000743_001023_000291_007137_006949_030419_013449_111505_212393,
  1_005127_000001_000003_000005_000007_000031_000029_000079_000211_000425_000093_001173_001957_006737_001725_030703_043237_119747_157395,
  1_005131_000001_000001_000007_000003_000017_000021_000039_000019_000485_000663_000019_000761_001525_011059_012833_017567_061123_124801,
  1_005136_000001_000001_000007_000003_000007_000025_000017_000199_000413_000821_001561_003855_001871_014041_007525_019383_051017_213357,
  1_005145_000001_000003_000003_000009_000025_000011_000063_000083_000217_000587_000047_003775_000767_009191_005127_009133_097689_122949,
  1_005146_000001_000001_000001_000009_000019_000007_000089_000125_000023_000813_001277_002965_001939_001453_006349_053127_109813_063767,
  1_005175_000001_000001_000005_000015_000029_000063_000117_000037_000185_000069_001823_002791_004125_011757_014847_015567_126141_185951,
  1_005218_000001_000003_000007_000001_000023_000011_000015_000113_000209_000785_000229_003207_000097_002489_004587_014253_030421_051027,
  1_005223_000001_000003_000001_000007_000007_000033_000057_000051_000219_000233_000089_003781_002055_004163_010935_051913_063507_018645,
  1_005248_000001_000003_000001_000007_000007_000055_000107_000187_000109_000867_000955_000139_004979_008627_005835_028761_072061_099413,
  1_005294_000001_000001_000001_000003_000005_000059_000017_000121_000511_000029_001009_002875_002459_001817_011741_013869_072543_070485,
  1_005299_000001_000001_000005_000001_000027_000019_000125_000065_000379_000803_000411_002403_000719_010683_023351_018113_066773_252223,
  1_005301_000001_000001_000007_000009_000031_000051_000065_000233_000171_000357_001465_001609_004263_015207_018825_048831_069459_211321]

def dirRows18_0_3 : List Nat := [
  1_005311_000001_000001_000003_000003_000005_000035_000053_000245_000469_001011_000759_000455_004487_009835_010349_061755_073279_186049,
  1_005343_000001_000001_000007_000003_000027_000019_000105_000193_000403_000907_000295_001445_001867_008867_007821_045309_129069_083953,
  1_005344_000001_000001_000007_000007_000007_000051_000085_000097_000473_000837_000201_000501_002929_009457_006473_003653_126991_218069,
  1_005396_000001_000003_000003_000005_000025_000049_000085_000223_000127_000563_000239_001975_000119_006029_019349_059533_044173_142229,
  1_005406_000001_000001_000003_000007_000023_000011_000027_000049_000467_000701_002037_002367_005829_012533_009641_038629_090505_132013,
  1_005410_000001_000001_000007_000001_000013_000025_000079_000107_000037_000331_000355_003639_004875_006635_021703_018289_036257_201857,
  1_005424_000001_000001_000005_000001_000003_000039_000025_000101_000199_000401_001495_003683_005447_012313_019707_020853_066821_073959,
  1_005447_000001_000001_000001_000009_000015_000009_000003_000231_000479_000097_000221_000973_000839_001757_008759_045625_044691_139803,
  1_005461_000001_000001_000007_000015_000009_000051_000023_000233_000311_000083_000287_004035_002087_004245_025457_043105_104903_132811,
  1_005468_000001_000001_000001_000009_000005_000013_000033_000167_000363_000067_000601_002143_005495_001277_014615_032759_034935_158625,
  1_005475_000001_000001_000005_000011_000005_000063_000035_000049_000183_000705_000377_002607_002947_010119_015631_060247_099309_025747,
  1_005478_000001_000003_000007_000005_000007_000003_000127_000109_000165_000767_001873_003825_000441_011957_002581_038309_129623_077451,
  1_005523_000001_000003_000001_000007_000019_000053_000101_000117_000505_000363_001399_001015_000631_008309_017507_028941_042585_116283,
  1_005530_000001_000001_000007_000007_000009_000027_000127_000195_000499_000225_000153_000517_003909_009801_003787_032829_006599_190807,
  1_005535_000001_000001_000005_000001_000003_000049_000125_000235_000255_000329_000909_001685_000759_002287_003479_023491_071157_081457,
  1_005548_000001_000001_000003_000009_000019_000021_000093_000037_000259_000069_000219_001943_004747_013951_014945_046099_087189_222287,
  1_005559_000001_000001_000007_000005_000021_000033_000061_000227_000167_000569_001355_002997_004917_010765_007015_054335_125543_112867,
  1_005580_000001_000001_000005_000003_000025_000035_000097_000023_000365_000159_001211_001283_000979_008993_021323_006863_046869_036169,
  1_005604_000001_000001_000007_000013_000015_000049_000045_000209_000397_000785_000047_002307_004749_002735_029525_054921_023321_216197,
  1_005622_000001_000001_000001_000011_000031_000023_000027_000127_000197_000595_000029_000773_003291_006355_011891_006635_099871_177531,
  1_005641_000001_000001_000007_000011_000009_000049_000085_000059_000211_000307_001821_003947_004175_011287_027889_000107_046463_237129,
  1_005649_000001_000003_000003_000007_000031_000031_000009_000049_000365_000189_001211_000943_000337_013809_016941_017053_070125_149865,
  1_005656_000001_000003_000001_000013_000009_000021_000067_000001_000365_000077_001701_000559_003461_008961_013801_016111_065239_157713,
  1_005671_000001_000003_000007_000013_000019_000049_000029_000233_000361_001011_001617_002989_002387_014027_004021_028791_033155_171449,
  1_005689_000001_000001_000005_000013_000031_000019_000077_000069_000049_000513_001411_000077_004993_000907_023483_020129_029491_138187,
  1_005721_000001_000003_000003_000011_000023_000033_000019_000055_000307_000455_001783_003997_006411_003355_008815_039883_124381_049667,
  1_005731_000001_000003_000003_000015_000027_000007_000025_000243_000275_000027_000023_003039_006497_015975_005877_058611_006317_209119,
  1_005734_000001_000003_000001_000005_000007_000021_000097_000247_000297_000181_000773_003095_002441_015683_029609_050431_092813_000723,
  1_005738_000001_000001_000001_000003_000017_000025_000069_000171_000027_000083_000173_000163_007915_013547_005915_020275_101613_225081,
  1_005740_000001_000001_000007_000015_000019_000013_000053_000095_000171_000889_000131_001979_002537_007749_000077_049293_068875_159125,
  1_005748_000001_000001_000001_000005_000011_000007_000007_000029_000397_000435_001495_002263_003677_011121_001269_005415_044427_249943,
  1_005791_000001_000003_000001_000005_000023_000021_000013_000185_000231_000757_001647_000663_001273_011641_025563_046793_054231_113143,
  1_005801_000001_000003_000003_000007_000011_000021_000083_000109_000409_000923_001541_002805_001781_006903_009093_037327_060923_167271,
  1_005807_000001_000003_000007_000005_000029_000037_000087_000085_000093_000749_000875_002869_001023_013303_026865_030971_040863_237075,
  1_005822_000001_000001_000007_000013_000021_000025_000039_000213_000303_000265_001251_002963_003819_008507_023239_052625_123375_058553,
  1_005829_000001_000001_000001_000001_000003_000001_000007_000067_000339_000583_000003_002489_005481_012241_021695_031351_039389_131925,
  1_005834_000001_000001_000005_000011_000011_000003_000095_000023_000133_000415_000077_001891_004083_007097_026455_028689_083047_049759,
  1_005847_000001_000003_000007_000015_000019_000031_000065_000189_000489_000461_001255_001897_003361_012223_009721_045937_102695_113431,
  1_005854_000001_000003_000001_000005_000009_000057_000003_000225_000241_000769_001003_002255_007655_004837_025267_035845_049545_024931,
  1_005878_000001_000001_000001_000001_000001_000043_000003_000217_000397_000419_001189_002037_005941_004341_019851_013773_015225_167581,
  1_005882_000001_000001_000001_000009_000003_000027_000065_000049_000115_000787_001637_001867_007265_008541_001587_058987_082161_019997,
  1_005919_000001_000003_000007_000011_000017_000017_000093_000103_000309_000159_000781_003179_005759_007661_005693_048531_127375_141449,
  1_005947_000001_000003_000007_000005_000013_000039_000079_000241_000007_000137_000219_000523_000541_004787_023327_041665_111017_118901,
  1_005981_000001_000001_000003_000015_000031_000023_000107_000221_000295_000935_001165_002463_001635_010205_018057_028217_051755_085579,
  1_005982_000001_000003_000001_000011_000023_000047_000007_000059_000075_000603_001237_002601_006873_012735_032181_046849_106363_171753,
  1_006025_000001_000001_000007_000013_000015_000031_000003_000113_000355_000955_000919_001807_007903_005485_001733_064759_015817_093829,
  1_006028_000001_000001_000003_000015_000011_000033_000095_000067_000511_000971_000343_000041_002849_010695_024487_008971_129279_197635,
  1_006039_000001_000003_000001_000013_000013_000047_000077_000127_000193_000191_001185_003321_001685_001421_028675_012593_086689_186763,
  1_006056_000001_000003_000007_000013_000001_000011_000123_000091_000287_000751_000011_002753_007153_005253_021817_010459_122225_105775,
  1_006064_000001_000003_000003_000013_000001_000017_000121_000013_000391_000253_001323_001515_002067_008009_005173_059543_109511_156821,
  1_006073_000001_000001_000005_000003_000007_000001_000119_000151_000281_000859_000675_002923_006627_016071_024653_041325_118413_191981,
  1_006081_000001_000003_000005_000003_000031_000017_000057_000255_000473_000455_000203_000173_000345_001477_027939_039289_105081_136179,
  1_006088_000001_000003_000003_000007_000001_000035_000029_000081_000337_000483_000951_000955_004343_014827_017427_059919_081883_114289,
  1_006101_000001_000003_000005_000011_000003_000039_000049_000177_000335_000057_000173_001827_005729_002689_012109_013247_117559_031735,
  1_006139_000001_000003_000001_000003_000009_000009_000041_000097_000037_000897_000545_002289_007917_005701_021953_001863_033727_028451,
  1_006142_000001_000001_000005_000003_000029_000061_000059_000129_000387_000965_000285_003503_001651_010423_024861_031853_038491_155187,
  1_006194_000001_000003_000001_000013_000023_000033_000013_000161_000133_000029_001073_001491_003687_006821_024153_003675_033771_230087,
  1_006199_000001_000001_000007_000007_000029_000023_000023_000055_000189_000203_000641_003391_001217_003199_032531_043103_024007_085613,
  1_006200_000001_000001_000001_000011_000007_000057_000117_000245_000467_000861_001265_002827_002761_002817_015679_053223_047245_139871,
  1_006203_000001_000001_000003_000015_000025_000001_000125_000237_000489_001003_000515_001117_004427_004877_008685_046211_019889_082491,
  1_006214_000001_000001_000003_000003_000025_000003_000063_000217_000485_000699_000161_001459_002973_015949_030681_030991_013933_086505,
  1_006238_000001_000001_000007_000009_000027_000057_000023_000217_000401_000613_000277_002827_007111_002133_017489_062059_007273_170917,
  1_006241_000001_000001_000003_000013_000007_000019_000039_000063_000203_001001_000279_000879_004293_010121_000969_011571_096427_218969,
  1_006244_000001_000003_000007_000007_000005_000021_000113_000203_000077_000971_001351_001097_002581_007519_016049_010565_005055_241561,
  1_006248_000001_000003_000003_000011_000001_000021_000093_000111_000221_000031_001245_001499_002289_002299_023457_049221_068879_125029,
  1_006256_000001_000001_000007_000003_000015_000019_000057_000189_000243_000785_000399_003147_006107_002327_006275_009993_053051_034053,
  1_006266_000001_000003_000007_000015_000005_000063_000007_000193_000115_000579_001987_000765_007871_014179_026383_061455_014241_123515,
  1_006271_000001_000003_000007_000013_000019_000013_000091_000225_000295_000675_001995_001145_004929_005163_001101_060681_076777_146875,
  1_006275_000001_000003_000007_000015_000021_000037_000057_000089_000297_000143_000717_004021_003259_008869_021189_039333_125045_094469,
  1_006295_000001_000001_000005_000009_000027_000035_000069_000121_000433_000039_000889_000915_004055_011479_024757_053455_017503_113295,
  1_006315_000001_000001_000003_000003_000023_000019_000081_000191_000033_000865_000059_000603_002819_004919_022495_025089_073905_044971,
  1_006364_000001_000003_000003_000011_000019_000045_000125_000229_000143_000167_000867_000671_002225_016099_014909_014937_078063_135143,
  1_006368_000001_000001_000007_000011_000021_000055_000073_000247_000211_000895_001147_000017_002119_003261_019815_028055_050139_178459,
  1_006377_000001_000001_000003_000001_000019_000003_000037_000221_000243_000459_001539_003899_004597_005503_023015_057019_062637_177821,
  1_006400_000001_000003_000001_000003_000009_000005_000091_000003_000319_000609_001241_003953_005569_008757_006453_008083_055285_038297,
  1_006430_000001_000003_000005_000015_000009_000051_000037_000053_000137_000095_000123_000157_000015_007421_022469_049787_096245_199309,
  1_006477_000001_000003_000001_000001_000029_000061_000085_000211_000437_001013_001251_000061_000157_004325_024247_001065_024875_031509,
  1_006480_000001_000003_000001_000013_000007_000043_000013_000171_000053_000567_000077_003781_005077_006691_032485_024253_083919_159371,
  1_006490_000001_000001_000001_000013_000015_000015_000019_000053_000325_000309_000053_001857_007361_008831_031751_044749_109265_227875,
  1_006526_000001_000003_000007_000003_000031_000019_000113_000253_000361_000697_001137_002029_003673_010323_010455_024935_007325_043673,
  1_006539_000001_000003_000001_000001_000017_000031_000003_000055_000121_000967_001701_002171_004393_011937_003987_005139_068913_134233,
  1_006556_000001_000001_000007_000015_000023_000037_000121_000241_000297_000419_000373_001219_000739_004567_028593_061267_095711_201299,
  1_006584_000001_000001_000001_000009_000023_000031_000101_000243_000163_000333_001707_002553_005285_012827_005051_014165_000505_253585,
  1_006598_000001_000001_000001_000009_000011_000029_000081_000045_000101_000235_001079_004091_001069_003439_023599_006699_071783_236943,
  1_006601_000001_000003_000007_000011_000029_000049_000099_000059_000001_000267_000887_002941_006717_007501_022549_053393_034569_034671,
  1_006609_000001_000003_000001_000015_000023_000013_000113_000047_000011_000079_000989_001025_000035_010475_008079_033121_032477_178595,
  1_006612_000001_000003_000007_000001_000021_000019_000051_000031_000393_000171_000553_002221_007017_008567_021803_051803_083737_196409,
  1_006645_000001_000001_000003_000003_000001_000027_000117_000207_000037_000733_002001_002575_004849_005609_000743_035987_109993_227663,
  1_006655_000001_000001_000007_000015_000029_000047_000085_000213_000335_000633_000849_003269_007723_004651_000355_054565_058829_022781,
  1_006679_000001_000003_000007_000005_000005_000003_000091_000243_000017_000085_001983_003909_001839_010403_000503_028451_003221_215397,
  1_006683_000001_000001_000001_000015_000013_000003_000009_000025_000249_000113_001619_002313_006461_002323_014319_059635_009569_220583,
  1_006719_000001_000003_000005_000007_000031_000059_000041_000043_000043_000921_000647_002141_007011_002749_024711_019067_107895_107145,
  1_006727_000001_000001_000003_000003_000015_000063_000041_000241_000181_000729_000843_003569_002645_002727_025331_023067_115421_086025,
  1_006734_000001_000003_000001_000015_000011_000047_000009_000183_000341_000775_001067_001317_006835_007873_002653_033517_103979_196761,
  1_006770_000001_000001_000003_000013_000029_000011_000105_000009_000049_000823_001343_000759_001263_012413_026047_054285_057319_215387,
  1_006776_000001_000001_000005_000013_000021_000055_000075_000149_000063_000737_001305_000929_004149_002793_024505_011541_074765_008207,
  1_006791_000001_000003_000005_000009_000025_000001_000043_000157_000303_000395_000301_001561_005963_003501_002259_059777_100953_016051,
  1_006798_000001_000003_000001_000013_000019_000025_000033_000209_000011_000095_000655_000595_003081_010345_026615_045129_084023_158079,
  1_006800_000001_000003_000001_000009_000031_000061_000103_000203_000471_000215_001103_000759_001197_003333_015859_036103_031563_005987,
  1_006826_000001_000001_000001_000007_000001_000049_000121_000227_000153_000793_001723_001033_006875_006683_002503_057213_097967_120383]

def dirRows18_0_4 : List Nat := [
  1_006833_000001_000003_000007_000011_000003_000015_000035_000181_000019_000249_000755_001385_003297_004665_002761_022717_126199_085065,
  1_006836_000001_000003_000007_000015_000005_000045_000017_000055_000111_000597_000553_001203_007183_008465_028523_050073_090889_187205,
  1_006858_000001_000003_000003_000009_000031_000057_000013_000139_000291_000881_000501_002051_000617_005151_028225_044777_031645_006805,
  1_006882_000001_000003_000005_000013_000001_000023_000107_000001_000201_000035_001673_002281_007663_001115_025061_059615_127955_169685,
  1_006901_000001_000001_000003_000015_000015_000005_000017_000075_000307_000591_001661_000855_004239_013359_020027_051871_035241_032769,
  1_006923_000001_000001_000001_000015_000005_000023_000059_000205_000223_000103_001889_000141_006157_009187_023571_015267_001941_119173,
  1_006967_000001_000003_000005_000009_000027_000063_000059_000011_000279_000493_000209_004087_001055_009841_031753_037459_027757_213151,
  1_006979_000001_000001_000003_000011_000031_000033_000013_000087_000285_000847_002005_003431_000253_015157_031359_045303_114337_042541,
  1_007022_000001_000001_000001_000007_000007_000003_000017_000203_000133_000321_000241_001323_005639_010953_010069_004941_017077_054493,
  1_007060_000001_000001_000007_000001_000009_000005_000125_000005_000421_000609_000645_001927_003785_002295_001491_023019_085497_161231,
  1_007064_000001_000003_000003_000011_000019_000035_000115_000095_000353_000773_002025_002621_002821_006361_029589_020989_099645_090387,
  1_007083_000001_000003_000001_000015_000023_000003_000071_000253_000467_000307_001109_002695_007175_015087_001587_048229_104307_218905,
  1_007093_000001_000003_000003_000005_000017_000029_000107_000153_000371_000205_000007_000597_007393_002345_020149_047417_037983_200683,
  1_007094_000001_000001_000007_000001_000003_000055_000113_000117_000241_000923_001217_003825_002635_008007_012673_009533_007121_003825,
  1_007120_000001_000001_000001_000003_000021_000063_000025_000111_000031_000151_000067_003735_007833_000749_028743_059291_004989_093329,
  1_007125_000001_000003_000005_000013_000031_000005_000091_000153_000235_001019_000431_001951_007501_008483_019625_057789_013203_036693,
  1_007142_000001_000001_000007_000003_000015_000051_000099_000029_000403_000343_001903_000907_003255_004149_029551_018885_074391_096119,
  1_007151_000001_000001_000007_000011_000031_000011_000063_000213_000437_000879_000359_000555_007549_014269_031489_051001_076857_237305,
  1_007165_000001_000001_000001_000015_000023_000021_000031_000227_000311_000273_000253_002439_007217_002191_031743_047669_062279_201305,
  1_007173_000001_000003_000005_000011_000003_000043_000097_000121_000363_000091_000201_001095_005267_000633_019111_036099_023035_205655,
  1_007188_000001_000003_000001_000009_000021_000031_000039_000011_000227_000699_000473_002109_002757_013821_031181_040493_057279_260085,
  1_007191_000001_000001_000005_000007_000027_000057_000065_000011_000173_000709_001139_003735_005291_016053_032579_025275_079865_196033,
  1_007202_000001_000001_000001_000009_000019_000035_000083_000153_000287_000207_000593_002177_003243_010433_024583_000881_071865_250223,
  1_007216_000001_000003_000003_000009_000003_000035_000107_000003_000193_001011_000463_001643_002733_002157_006329_024583_116901_226385,
  1_007219_000001_000003_000001_000011_000003_000047_000039_000033_000495_000137_001591_001335_001347_004527_000389_043341_080163_005219,
  1_007267_000001_000003_000003_000005_000019_000051_000121_000135_000093_000891_000013_001339_005187_005005_012823_014465_073845_119685,
  1_007358_000001_000003_000007_000007_000019_000001_000057_000193_000325_000049_000813_000005_004431_001119_013625_043613_127989_042669,
  1_007383_000001_000003_000005_000015_000011_000033_000007_000045_000215_000469_001059_004095_003549_011839_005463_021383_004831_188345,
  1_007387_000001_000001_000001_000013_000005_000061_000007_000161_000099_000623_001589_001045_002385_008899_019327_041373_109241_111895,
  1_007396_000001_000001_000005_000007_000011_000039_000115_000041_000021_000491_001221_002805_004311_007137_003151_001387_024633_094679,
  1_007408_000001_000001_000003_000007_000003_000039_000071_000175_000443_000187_001727_002535_005099_001881_021639_005717_048589_095037,
  1_007432_000001_000001_000001_000011_000025_000021_000037_000227_000407_000073_000721_003515_000381_000981_021389_005205_031851_140457,
  1_007462_000001_000003_000003_000003_000027_000035_000013_000129_000457_000315_000253_002545_005469_006695_025223_020115_038039_133655,
  1_007480_000001_000001_000003_000011_000021_000047_000077_000231_000087_000245_002039_002515_002873_001711_003361_062123_067117_239047,
  1_007488_000001_000001_000007_000007_000029_000021_000039_000175_000477_000813_000447_001109_007391_014631_004437_042539_013003_075403,
  1_007497_000001_000003_000001_000011_000011_000009_000119_000019_000099_000483_000061_001883_003415_002137_030415_034519_115191_024437,
  1_007531_000001_000001_000001_000009_000007_000047_000115_000233_000419_000427_001605_003821_006243_010861_028495_048265_080811_147701,
  1_007561_000001_000003_000005_000005_000011_000061_000051_000155_000279_000463_000031_001559_002837_008795_004049_013651_109227_052131,
  1_007582_000001_000001_000007_000009_000025_000033_000097_000079_000477_000083_000923_003293_006381_003063_023293_035381_082867_233189,
  1_007591_000001_000001_000001_000009_000011_000039_000109_000189_000219_001021_000137_002041_002719_001763_031787_029377_096287_179685,
  1_007612_000001_000003_000007_000005_000003_000015_000037_000179_000077_000751_000709_000893_007705_001563_007843_029843_001107_035919,
  1_007677_000001_000003_000003_000003_000029_000017_000123_000201_000275_000487_001979_001361_007523_013783_010129_016877_127049_163221,
  1_007687_000001_000001_000001_000009_000027_000035_000069_000167_000509_000133_001073_003773_000265_008455_012341_000127_115075_094537,
  1_007701_000001_000003_000007_000009_000013_000035_000057_000083_000123_000211_000739_000253_003907_005405_003229_046837_077483_005915,
  1_007705_000001_000001_000007_000003_000007_000027_000071_000235_000133_000803_000611_000529_004449_016113_008151_036519_034561_036361,
  1_007712_000001_000001_000003_000001_000031_000009_000123_000085_000407_000415_000353_003239_000673_004641_025883_061117_007669_240851,
  1_007721_000001_000001_000005_000011_000029_000009_000049_000031_000003_000249_001769_003325_000503_001397_030677_022515_081279_090309,
  1_007736_000001_000003_000005_000003_000015_000063_000121_000253_000421_000279_000497_003881_006977_011061_005883_038347_008351_118123,
  1_007756_000001_000001_000001_000013_000001_000027_000003_000091_000281_000563_001283_001893_007593_012171_027041_007769_095691_013791,
  1_007777_000001_000001_000003_000003_000029_000059_000087_000153_000337_000819_000787_002631_001889_013869_029237_057097_091621_004011,
  1_007783_000001_000001_000001_000015_000007_000049_000001_000083_000299_000353_000131_001635_003723_016209_001061_050669_068083_133443,
  1_007792_000001_000003_000005_000005_000027_000017_000005_000239_000285_000831_001487_000721_004891_004265_023753_043921_116709_105027,
  1_007797_000001_000001_000007_000007_000005_000035_000063_000097_000215_000447_000353_000495_008119_012537_009679_058641_065057_021999,
  1_007802_000001_000003_000007_000005_000023_000043_000069_000115_000059_000603_000493_001665_005003_013607_028491_004439_011855_228183,
  1_007808_000001_000003_000003_000003_000015_000035_000019_000063_000241_000357_000979_002891_003105_014085_010539_062335_130903_163153,
  1_007866_000001_000003_000005_000003_000023_000051_000023_000193_000129_000171_001913_001025_006397_015657_019611_057455_087531_051039,
  1_007885_000001_000001_000003_000009_000001_000009_000007_000239_000087_000527_001401_002703_004021_003845_029269_048217_061091_131949,
  1_007891_000001_000003_000001_000005_000017_000045_000059_000223_000287_000295_001959_003985_003671_014605_018949_034147_051251_010271,
  1_007913_000001_000003_000005_000009_000005_000049_000063_000105_000043_000157_001827_000495_005823_006323_006601_051379_064411_204103,
  1_007936_000001_000001_000007_000001_000011_000031_000117_000009_000013_000965_000177_001247_002487_009849_020367_049287_002193_235689,
  1_007946_000001_000001_000003_000011_000019_000031_000023_000215_000489_000657_000801_003937_000379_012083_014969_037857_039027_063985,
  1_007963_000001_000001_000005_000001_000009_000059_000053_000187_000341_000065_001251_000767_004897_013263_017439_026625_122107_163653,
  1_007996_000001_000001_000003_000013_000031_000041_000125_000253_000481_000107_000233_002305_003321_007303_028585_012787_083307_031497,
  1_007999_000001_000001_000003_000013_000025_000041_000055_000083_000101_000115_000549_000531_003085_009497_027989_028257_121075_189671,
  1_008011_000001_000003_000005_000011_000013_000053_000121_000085_000355_000275_001925_002117_001349_005903_002041_020963_060803_001121,
  1_008014_000001_000001_000005_000005_000013_000007_000125_000063_000311_000187_001127_000643_006137_000845_023945_009403_000451_053027,
  1_008028_000001_000001_000003_000007_000019_000031_000027_000239_000337_000061_000641_001693_007289_005675_030067_041091_124607_036971,
  1_008047_000001_000003_000001_000013_000025_000061_000011_000081_000165_000129_000241_000711_005193_013017_030821_035239_110809_060909,
  1_008077_000001_000003_000003_000013_000015_000013_000071_000019_000087_000499_001395_001191_001445_002687_004691_016773_114269_186237,
  1_008101_000001_000003_000003_000015_000001_000049_000033_000109_000241_000005_000431_000461_003865_014029_009827_054455_052159_211585,
  1_008119_000001_000003_000005_000007_000031_000027_000115_000113_000367_000591_000873_001447_006819_007011_014095_055243_004039_226985,
  1_008125_000001_000001_000007_000003_000001_000019_000069_000239_000417_000833_001867_003111_002617_012781_005531_017345_075717_139667,
  1_008140_000001_000001_000005_000011_000011_000063_000023_000141_000221_000897_001269_002185_006057_008865_020449_058255_027073_158305,
  1_008152_000001_000003_000003_000005_000023_000023_000121_000039_000457_000935_000691_002329_007055_002821_012669_028713_082321_245783,
  1_008209_000001_000001_000001_000009_000027_000009_000035_000023_000139_000823_000703_000917_001281_012155_011681_026083_119445_181489,
  1_008212_000001_000001_000003_000007_000027_000021_000035_000243_000017_000633_001665_003419_006301_016099_017477_024983_128455_127501,
  1_008231_000001_000003_000001_000001_000017_000019_000059_000165_000487_000985_000597_000689_007103_014475_006985_029755_115977_105943,
  1_008258_000001_000001_000005_000005_000023_000041_000067_000175_000003_000571_001501_003315_006111_001847_028975_054117_066605_069997,
  1_008275_000001_000003_000005_000005_000013_000037_000113_000075_000383_000297_001187_002055_003433_014651_030393_029647_126403_032265,
  1_008303_000001_000001_000003_000005_000031_000029_000025_000169_000465_000219_000081_002019_004255_006003_007425_053269_031105_211937,
  1_008308_000001_000003_000007_000011_000013_000007_000011_000195_000327_000883_001295_003721_001197_007585_005693_000993_125017_012007,
  1_008312_000001_000003_000003_000007_000005_000037_000071_000037_000063_000651_000669_003445_003959_000249_010599_022329_107701_107729,
  1_008345_000001_000001_000001_000009_000007_000047_000021_000181_000395_000345_000757_000481_002759_008157_019847_055743_063137_224765,
  1_008346_000001_000003_000005_000009_000029_000003_000061_000035_000271_000157_000549_000843_002907_000091_016325_004241_094495_078861,
  1_008370_000001_000003_000001_000009_000017_000011_000053_000243_000049_000911_001193_000793_000901_003727_021849_033987_000565_154171,
  1_008402_000001_000001_000005_000001_000009_000005_000089_000081_000065_000111_000781_003775_000591_004987_029833_058159_007253_206447,
  1_008411_000001_000003_000001_000007_000003_000059_000077_000083_000173_000545_000103_002541_008095_010797_011111_062351_088827_055081,
  1_008414_000001_000001_000003_000011_000029_000037_000019_000047_000145_000019_000513_003269_002205_005317_019207_038051_005413_078089,
  1_008424_000001_000001_000005_000009_000021_000057_000075_000249_000021_000879_001377_003407_006123_011917_012493_044873_113539_114717,
  1_008435_000001_000003_000003_000009_000007_000055_000121_000057_000491_000039_001561_002625_000639_013553_001159_043071_068869_248837,
  1_008452_000001_000001_000001_000011_000025_000019_000107_000239_000171_001001_000069_004095_000049_009569_022613_059865_054959_070031,
  1_008462_000001_000001_000003_000013_000027_000015_000105_000205_000205_000581_001965_001535_006531_015935_007623_033695_009317_044257,
  1_008479_000001_000001_000001_000003_000003_000051_000115_000185_000315_000763_000211_000339_007083_004895_023277_014165_101731_218903,
  1_008509_000001_000001_000003_000013_000029_000001_000069_000055_000423_000781_000183_001417_000151_014507_005217_027757_052447_145913,
  1_008515_000001_000003_000001_000011_000029_000039_000029_000151_000085_000387_000885_000507_000133_009819_012627_030951_079839_206267,
  1_008522_000001_000003_000003_000007_000001_000053_000099_000141_000091_000051_000143_001751_003989_006811_007339_052141_043473_018615,
  1_008541_000001_000003_000003_000015_000027_000011_000029_000037_000387_000655_002019_001135_003619_012995_012755_026063_109419_103875,
  1_008560_000001_000003_000003_000013_000031_000015_000093_000231_000195_000261_001055_002363_001123_003927_006907_000365_027043_157049,
  1_008563_000001_000001_000001_000015_000007_000029_000105_000199_000507_000437_000117_002963_007801_006291_019261_030377_092205_020723,
  1_008585_000001_000001_000001_000009_000029_000019_000075_000189_000003_000387_001491_002291_007739_012993_011835_010873_054583_207963]

def dirRows18_0_5 : List Nat := [
  1_008594_000001_000003_000007_000003_000023_000011_000025_000105_000057_000713_001291_003293_004693_013859_027541_031529_065929_245143,
  1_008596_000001_000001_000007_000007_000019_000013_000019_000189_000253_000337_000351_001751_006173_012207_024483_031381_082035_157143,
  1_008603_000001_000003_000003_000011_000011_000049_000117_000177_000301_000417_000855_002433_005619_007339_030361_029251_020411_184981,
  1_008610_000001_000001_000001_000001_000011_000055_000077_000099_000209_000781_001193_002841_000783_001485_019413_052255_019529_253927,
  1_008647_000001_000003_000001_000003_000015_000049_000085_000191_000389_000411_000479_000341_004985_006193_019099_011497_103285_162333,
  1_008661_000001_000003_000001_000003_000011_000031_000071_000091_000357_000615_002007_003601_005393_008079_016811_054127_026049_116341,
  1_008662_000001_000001_000003_000015_000009_000039_000121_000053_000043_000617_000905_003629_006327_013453_001435_024113_007523_228523,
  1_008672_000001_000003_000005_000011_000021_000051_000011_000125_000033_000935_001069_002807_004951_013261_017611_038779_062203_135759,
  1_008690_000001_000001_000001_000013_000029_000059_000053_000245_000219_000423_000809_001109_007255_014679_025247_043235_129565_072649,
  1_008696_000001_000003_000005_000007_000027_000029_000119_000091_000297_000407_000187_002829_005637_013851_014073_000461_064081_033971,
  1_008739_000001_000001_000005_000011_000015_000027_000029_000233_000487_000859_001021_003117_001439_016021_031315_035775_117363_131635,
  1_008783_000001_000001_000005_000003_000003_000001_000091_000229_000327_000777_000393_003853_003455_001785_013749_025173_051575_167237,
  1_008811_000001_000003_000007_000009_000027_000007_000015_000071_000283_000071_001783_001357_005581_003143_026075_047751_071001_157107,
  1_008813_000001_000003_000003_000007_000023_000009_000069_000021_000333_000223_001735_001057_008091_001927_008507_040901_040233_164115,
  1_008821_000001_000003_000007_000003_000011_000049_000029_000081_000215_000289_001137_000765_006385_005935_003435_011991_030867_060745,
  1_008856_000001_000001_000001_000001_000007_000039_000033_000173_000225_000533_001927_003607_001059_008779_002649_006801_103963_167471,
  1_008877_000001_000003_000003_000015_000027_000051_000107_000003_000195_000087_000739_001425_000747_001501_022245_059233_124867_079753,
  1_008885_000001_000001_000003_000003_000013_000041_000125_000101_000225_000749_000221_002735_006441_011353_003943_035329_053437_149063,
  1_008897_000001_000003_000003_000015_000003_000053_000075_000077_000001_000907_000573_001909_000363_006913_000559_058489_001053_025513,
  1_008898_000001_000001_000007_000011_000007_000015_000091_000155_000447_000555_000473_003625_007529_016307_032241_064077_046943_085717,
  1_008934_000001_000001_000001_000013_000009_000061_000091_000041_000101_000107_001081_002511_002881_014095_003861_022771_032687_077287,
  1_008955_000001_000003_000003_000007_000021_000003_000051_000177_000203_000861_001507_001177_002369_011735_001667_028607_097671_123263,
  1_008972_000001_000001_000001_000003_000005_000057_000013_000127_000353_000065_000663_003849_003579_005521_011765_063427_076349_102517,
  1_008977_000001_000001_000007_000011_000027_000055_000079_000249_000397_000077_001543_003787_004889_011145_018691_062899_066425_116195,
  1_009038_000001_000001_000001_000003_000005_000003_000001_000143_000073_000999_002013_002001_004001_006563_030811_061445_002645_203631,
  1_009045_000001_000001_000001_000015_000001_000049_000035_000061_000493_000101_001407_002211_007467_012321_015901_015479_062939_014643,
  1_009071_000001_000001_000003_000011_000021_000033_000123_000095_000449_000355_001501_001627_001411_006183_017457_002199_096313_025023,
  1_009085_000001_000001_000005_000005_000013_000049_000073_000203_000083_000003_000137_000119_003001_010685_018231_060727_031785_158605,
  1_009110_000001_000003_000001_000011_000023_000019_000123_000009_000269_000501_002005_003695_003327_005353_012619_012987_018213_029355,
  1_009120_000001_000003_000001_000005_000001_000025_000099_000197_000327_000575_000773_002009_006653_001807_020381_055725_124359_176893,
  1_009157_000001_000001_000007_000015_000027_000009_000081_000175_000073_000727_001907_001237_004983_016123_016479_002283_057805_013593,
  1_009164_000001_000001_000003_000013_000007_000013_000013_000139_000283_000721_000487_001821_004257_005105_008057_027193_046857_169927,
  1_009185_000001_000001_000005_000005_000029_000005_000081_000211_000441_000685_000981_003097_006253_010673_012253_054943_069401_147769,
  1_009203_000001_000003_000003_000001_000013_000035_000073_000145_000139_000781_000037_000803_003607_004327_001153_011325_131025_168729,
  1_009235_000001_000003_000001_000013_000017_000041_000019_000059_000023_000561_000315_000719_003325_000275_012715_059843_016597_081691,
  1_009278_000001_000003_000001_000011_000001_000053_000011_000237_000363_000345_000331_000129_006885_003105_012487_053803_008897_193777,
  1_009290_000001_000003_000007_000015_000003_000053_000055_000101_000389_000839_000413_002851_003989_012857_025723_016595_094145_193049,
  1_009292_000001_000003_000001_000007_000015_000031_000003_000115_000197_000753_001035_001369_004925_004497_001641_063743_127089_114097,
  1_009319_000001_000003_000005_000005_000023_000001_000035_000099_000277_000769_000895_000581_006969_015339_010309_027101_022611_086179,
  1_009334_000001_000001_000001_000011_000019_000017_000045_000035_000257_000313_000815_001469_003651_015101_022775_051729_075401_123653,
  1_009362_000001_000003_000001_000015_000005_000011_000083_000141_000373_000935_001123_001849_001267_015427_010615_063303_109771_188601,
  1_009387_000001_000003_000005_000003_000029_000023_000079_000193_000261_000029_001857_000789_004359_014211_022181_064901_129089_065587,
  1_009404_000001_000003_000001_000003_000029_000015_000019_000239_000497_000771_000239_002853_002391_008153_031899_053759_127219_078833,
  1_009407_000001_000001_000007_000007_000005_000057_000009_000093_000069_000993_000193_003629_005761_009339_028073_050035_081635_083119,
  1_009410_000001_000001_000005_000013_000007_000035_000079_000247_000043_001011_001189_002881_001963_008889_009929_050043_112581_224139,
  1_009422_000001_000003_000003_000007_000015_000063_000085_000033_000107_000037_000045_001271_004735_001151_019793_006589_050875_185061,
  1_009478_000001_000003_000001_000015_000001_000063_000001_000201_000207_000179_000067_003703_002629_010517_000001_039645_119733_006449,
  1_009512_000001_000003_000005_000001_000003_000007_000097_000101_000233_000071_000255_003767_008127_008041_025001_007601_129595_131657,
  1_009535_000001_000001_000007_000001_000025_000029_000105_000025_000267_000191_000267_003141_004445_005043_025203_032055_011035_229031,
  1_009604_000001_000001_000001_000013_000003_000001_000001_000147_000063_000259_001171_000401_006289_013577_028129_001349_085027_178123,
  1_009616_000001_000001_000001_000013_000001_000059_000109_000095_000049_000309_001141_001355_003415_011237_021619_012039_001795_057775,
  1_009622_000001_000003_000001_000011_000019_000003_000051_000227_000277_000049_000703_002701_000515_008893_020163_065297_114781_225687,
  1_009631_000001_000003_000007_000011_000019_000047_000121_000199_000173_000905_001903_001781_002425_013381_025843_023279_087701_010723,
  1_009656_000001_000003_000001_000013_000007_000021_000017_000015_000085_000241_000119_002361_007921_006077_000955_034221_078179_035511,
  1_009710_000001_000001_000007_000011_000009_000001_000001_000029_000445_000557_000241_000959_006077_003547_030987_048129_079699_236611,
  1_009721_000001_000003_000001_000015_000013_000029_000057_000117_000347_000719_001435_000307_005209_004009_010517_003373_067667_260101,
  1_009728_000001_000001_000007_000013_000011_000041_000017_000143_000467_000993_000779_003991_000623_008915_021615_056477_059721_164241,
  1_009733_000001_000001_000003_000007_000015_000037_000053_000033_000395_000547_001815_002517_006575_014035_000001_010919_025467_117521,
  1_009738_000001_000001_000003_000009_000017_000047_000045_000003_000509_000053_001245_000883_007917_015445_004169_049637_090933_109469,
  1_009774_000001_000003_000001_000003_000027_000037_000003_000095_000031_000665_000701_001979_003735_003257_018943_041201_095721_069451,
  1_009791_000001_000001_000001_000015_000019_000049_000061_000005_000115_000801_000805_002723_001387_013165_020717_040767_088857_028207,
  1_009803_000001_000001_000005_000009_000021_000025_000023_000179_000059_000029_000547_001829_004411_006689_022363_043975_052259_187563,
  1_009805_000001_000001_000005_000011_000013_000031_000097_000131_000135_000415_000053_004015_003629_006613_025541_047221_066483_224545,
  1_009817_000001_000003_000001_000011_000019_000013_000065_000095_000381_000759_001319_002997_006321_009203_024483_009925_010799_117119,
  1_009823_000001_000003_000005_000013_000027_000017_000039_000225_000199_000125_001125_002673_006787_008861_013139_013849_065459_040183,
  1_009839_000001_000001_000005_000003_000017_000055_000023_000075_000457_000959_001507_001267_006857_016141_001889_010779_041331_166075,
  1_009847_000001_000003_000001_000015_000007_000055_000109_000059_000241_000431_001281_000183_001029_014617_004003_041871_036007_129617,
  1_009854_000001_000003_000001_000001_000027_000061_000079_000093_000217_000251_000671_000989_007031_010035_015455_013685_095471_000997,
  1_009863_000001_000001_000003_000013_000001_000005_000125_000179_000357_000537_001303_002653_007319_002075_003861_011743_089659_221705,
  1_009872_000001_000001_000001_000007_000003_000055_000005_000201_000153_000639_000835_001913_003331_010727_030365_015133_067911_017851,
  1_009884_000001_000001_000003_000013_000021_000001_000067_000071_000265_000043_000279_002009_000873_004447_032001_050783_076613_063919,
  1_009935_000001_000001_000003_000011_000017_000043_000019_000195_000233_000017_001855_001227_003435_004313_006417_051019_130091_124947,
  1_009937_000001_000001_000007_000009_000019_000009_000095_000087_000297_000817_001217_003637_002371_007073_000387_062121_043507_093927,
  1_009974_000001_000003_000005_000013_000001_000015_000029_000123_000137_000425_000531_002659_002077_001345_002803_049469_029031_170825,
  1_009980_000001_000001_000005_000007_000015_000013_000119_000231_000139_000673_001105_002355_003023_004437_017491_047367_012751_183319,
  1_010003_000001_000001_000005_000015_000019_000005_000125_000121_000509_000539_000473_002087_004421_004205_023457_034481_111231_145035,
  1_010015_000001_000003_000007_000005_000023_000021_000085_000023_000415_000715_001579_003447_002373_000233_019401_054869_015977_138119,
  1_010016_000001_000001_000003_000011_000021_000001_000037_000127_000101_000943_000079_002119_005679_010749_016209_016715_029421_259735,
  1_010066_000001_000003_000007_000007_000023_000025_000001_000073_000505_000979_000535_000087_004165_009353_020075_057597_074651_022133,
  1_010093_000001_000001_000007_000003_000011_000019_000075_000213_000293_000015_001981_001259_005455_002897_018861_006317_010339_123967,
  1_010118_000001_000003_000001_000003_000029_000005_000093_000169_000051_000519_001649_002789_001251_008359_011489_062443_091549_148357,
  1_010132_000001_000003_000003_000013_000005_000047_000039_000163_000341_000755_000737_002335_002389_008351_026193_058111_018425_129313,
  1_010135_000001_000001_000003_000001_000031_000049_000101_000069_000345_000291_001257_001801_001613_001479_004403_021307_044947_068591,
  1_010151_000001_000003_000003_000009_000005_000023_000065_000065_000187_000709_000883_002199_001037_008679_031527_023561_092225_254215,
  1_010158_000001_000003_000007_000007_000023_000013_000087_000209_000163_000705_001199_003007_005469_002453_002691_017841_097045_174149,
  1_010169_000001_000001_000001_000009_000005_000035_000021_000091_000145_000559_000131_003911_001777_008225_006077_058223_100827_003641,
  1_010172_000001_000001_000005_000005_000007_000005_000031_000189_000117_000785_001493_003899_000471_010971_004607_021063_067225_195367,
  1_010180_000001_000001_000007_000005_000031_000061_000063_000163_000417_000655_002033_001255_001139_006867_028655_055295_100519_166629,
  1_010187_000001_000003_000003_000003_000007_000035_000083_000055_000007_000607_000253_000915_006801_007505_015929_016829_078469_150947,
  1_010189_000001_000003_000003_000009_000029_000003_000127_000235_000347_000003_000193_001547_008073_014963_020351_028951_053855_261375,
  1_010192_000001_000001_000007_000003_000031_000019_000075_000087_000023_000419_000075_001677_002371_008875_031993_004465_076085_086499,
  1_010197_000001_000003_000005_000007_000001_000051_000047_000161_000415_000521_001099_001295_002545_015167_013983_007347_060631_004089,
  1_010211_000001_000001_000001_000009_000007_000059_000071_000187_000441_000273_000769_002649_003261_012661_023045_032035_104573_120589,
  1_010214_000001_000003_000007_000013_000023_000051_000113_000205_000443_000291_000475_002961_007615_000105_022099_006045_022667_065515,
  1_010256_000001_000001_000005_000011_000001_000001_000023_000231_000413_000371_001285_002695_002751_004235_015779_001903_024469_259157,
  1_010278_000001_000003_000003_000007_000007_000047_000087_000105_000311_000251_000573_003221_005757_011107_011161_008809_014467_033153,
  1_010290_000001_000001_000007_000001_000031_000049_000051_000031_000305_000315_000547_001159_002741_003773_013299_040115_062523_108487,
  1_010301_000001_000003_000001_000011_000011_000043_000033_000213_000107_000467_001509_004081_004723_002409_001447_042759_064717_161991,
  1_010310_000001_000003_000007_000003_000031_000023_000025_000159_000095_000721_001981_003659_004819_010119_025451_010165_031281_238319,
  1_010344_000001_000003_000001_000005_000019_000027_000067_000125_000481_000585_000043_003697_004997_000581_006439_033477_115023_051759]

def dirRows18_0_6 : List Nat := [
  1_010473_000001_000003_000007_000007_000015_000053_000089_000173_000369_000365_000091_001583_004611_007189_030383_047397_073657_158695,
  1_010474_000001_000001_000001_000015_000001_000021_000125_000013_000243_000729_001397_002451_003233_015593_002815_056215_022685_167343,
  1_010482_000001_000003_000001_000013_000013_000029_000119_000223_000051_000695_000273_002381_004431_004891_029875_049511_111003_174413,
  1_010499_000001_000003_000003_000015_000009_000013_000019_000177_000371_000957_000255_000115_004701_006089_007237_017077_087949_003111,
  1_010525_000001_000001_000007_000011_000029_000049_000059_000201_000145_000219_001159_003863_000715_010489_025883_056445_122103_149877,
  1_010532_000001_000003_000001_000013_000015_000051_000091_000109_000433_000045_002045_003121_001109_014713_002667_040463_052185_064743,
  1_010535_000001_000003_000003_000007_000021_000031_000007_000155_000347_000305_001557_001311_003315_001363_000403_062063_114195_044623,
  1_010556_000001_000003_000005_000011_000009_000011_000011_000245_000049_000021_000239_003043_003525_001055_021891_019153_123689_170195,
  1_010568_000001_000001_000001_000011_000017_000051_000083_000249_000483_000489_001063_000469_006153_015551_013783_027945_103775_068175,
  1_010579_000001_000003_000003_000013_000011_000061_000107_000113_000503_000819_001593_002851_006711_014623_003709_010931_008743_062321,
  1_010586_000001_000001_000005_000015_000005_000037_000023_000131_000329_000499_001765_001273_000819_011573_003307_046933_022087_173459,
  1_010609_000001_000001_000001_000003_000031_000005_000049_000057_000239_000981_001863_003233_002727_007389_007923_063259_062873_113607,
  1_010612_000001_000001_000007_000007_000011_000027_000119_000137_000115_000211_001239_002153_002579_011501_000747_031141_129793_151589,
  1_010650_000001_000003_000003_000009_000009_000055_000121_000199_000091_000835_000521_002433_008123_002045_032553_048993_009935_220537,
  1_010665_000001_000003_000007_000011_000015_000057_000053_000145_000299_000623_000691_001557_000785_015851_027075_005983_018043_022241,
  1_010685_000001_000001_000003_000001_000001_000057_000057_000195_000381_000913_000167_000333_005541_002323_017001_034817_030795_144051,
  1_010686_000001_000003_000003_000003_000031_000001_000083_000031_000091_000855_000195_003449_008057_011061_029089_001597_127581_189033,
  1_010688_000001_000003_000001_000001_000021_000059_000113_000179_000013_000523_000629_003693_007155_000893_017449_046535_018051_009191,
  1_010711_000001_000001_000001_000003_000027_000019_000075_000229_000181_000653_001849_000501_005871_014769_027461_059193_115013_072227,
  1_010728_000001_000003_000003_000013_000017_000041_000111_000107_000453_000299_001699_002871_002955_004215_013919_019785_030339_148445,
  1_010748_000001_000003_000003_000011_000005_000019_000021_000087_000173_000439_001651_002393_004137_016285_016093_022953_105663_226575,
  1_010751_000001_000003_000005_000007_000019_000061_000101_000251_000295_000089_001695_001359_005797_008587_018753_065223_051079_096169,
  1_010781_000001_000001_000001_000005_000003_000001_000079_000063_000221_000601_001385_001963_004601_015217_004861_058295_061043_088523,
  1_010805_000001_000003_000003_000007_000031_000063_000073_000177_000455_000487_001009_002103_004753_003143_010121_036509_024753_230869,
  1_010823_000001_000001_000005_000001_000017_000027_000103_000063_000475_000665_001189_003513_000089_002669_001227_020635_121549_248851,
  1_010838_000001_000001_000003_000007_000025_000019_000117_000243_000337_000207_000903_003751_003309_011955_012651_025359_083419_019701,
  1_010857_000001_000001_000007_000015_000019_000021_000003_000235_000289_000185_001175_002291_004003_007753_004775_065321_048957_220261,
  1_010865_000001_000003_000005_000011_000023_000021_000107_000065_000117_000329_001085_003555_001183_015241_032663_050985_066753_038023,
  1_010872_000001_000001_000007_000009_000011_000049_000065_000017_000291_000435_001221_003829_005467_005181_019891_007091_080673_090495,
  1_010893_000001_000001_000001_000015_000017_000047_000119_000173_000297_000477_000859_003661_008081_008257_020841_055123_011231_193669,
  1_010899_000001_000001_000007_000007_000027_000011_000119_000109_000199_000727_001569_003749_004067_011675_030213_058091_064303_092785,
  1_010917_000001_000003_000007_000015_000015_000039_000101_000149_000299_000449_001017_000723_007731_007929_022465_061583_069851_150507,
  1_010935_000001_000003_000005_000015_000005_000013_000097_000127_000021_000673_000353_003885_005761_011443_010089_023701_085879_042217,
  1_011001_000001_000003_000001_000005_000027_000055_000031_000167_000069_000453_000925_000555_005135_002759_027077_014497_094333_108729,
  1_011072_000001_000001_000007_000015_000011_000055_000009_000241_000055_000611_000149_002605_000653_001631_015059_006349_012321_124561,
  1_011089_000001_000001_000001_000009_000003_000011_000095_000067_000443_000103_001687_002667_004567_004271_015601_027859_004757_053289,
  1_011090_000001_000001_000005_000009_000023_000021_000001_000125_000105_000975_001879_001821_005273_007079_025009_010471_029119_073249,
  1_011108_000001_000001_000007_000001_000031_000061_000017_000023_000485_000565_001325_001559_004131_000751_002071_004719_015925_101207,
  1_011117_000001_000001_000005_000005_000013_000053_000013_000093_000149_000139_001429_003605_003545_011193_014139_006093_115727_183105,
  1_011136_000001_000001_000001_000007_000015_000037_000051_000077_000177_000967_000405_000563_003047_008499_026787_027609_023613_239679,
  1_011148_000001_000001_000001_000005_000027_000037_000001_000129_000197_000133_001329_003673_003143_001059_019209_039027_043787_042821,
  1_011153_000001_000003_000007_000005_000005_000047_000105_000121_000219_000777_001569_001359_001955_013207_014895_007829_040499_182911,
  1_011181_000001_000003_000005_000007_000011_000041_000041_000155_000245_000383_000405_002415_005809_005117_031523_016927_076785_113731,
  1_011190_000001_000003_000003_000009_000009_000021_000013_000197_000409_000931_000305_001129_000865_012961_005239_035823_082565_226765,
  1_011201_000001_000001_000005_000003_000017_000027_000059_000079_000359_000601_000979_001355_001657_010479_004741_036391_111527_105139,
  1_011204_000001_000003_000005_000009_000013_000043_000031_000001_000309_000723_001049_000803_001653_002551_026317_049731_067799_129225,
  1_011216_000001_000001_000005_000003_000001_000039_000095_000243_000499_000809_001515_000981_000585_007907_016801_043381_117537_099787,
  1_011237_000001_000001_000005_000005_000025_000023_000015_000127_000033_000799_000647_002923_007805_002681_014773_042751_106861_119657,
  1_011259_000001_000003_000001_000001_000001_000047_000011_000179_000179_000659_001061_002511_003601_007107_027887_048427_040559_106043,
  1_011279_000001_000001_000007_000011_000005_000033_000115_000195_000431_000383_001571_003485_005741_005775_014891_026389_071723_198861,
  1_011282_000001_000001_000005_000005_000011_000055_000037_000057_000381_000607_002017_001981_006113_003771_008827_013335_088587_102791,
  1_011304_000001_000001_000001_000011_000029_000023_000073_000149_000405_000581_000721_000281_005315_004675_013013_039003_020335_109855,
  1_011312_000001_000001_000007_000015_000017_000057_000039_000051_000403_000979_001543_001235_000797_005949_026647_015125_033255_152861,
  1_011332_000001_000001_000005_000003_000025_000027_000007_000147_000257_000163_001297_002289_000693_007771_006341_022323_001653_177669,
  1_011341_000001_000001_000003_000009_000001_000039_000047_000231_000015_000705_000897_003943_006281_006679_021695_029553_039509_083135,
  1_011354_000001_000003_000003_000015_000017_000043_000015_000195_000031_000501_000529_003117_006031_012101_030687_052465_066171_149591,
  1_011356_000001_000001_000003_000005_000013_000017_000063_000041_000303_000671_001225_001761_006159_003203_023611_018309_115027_116325,
  1_011365_000001_000001_000005_000013_000017_000005_000097_000155_000479_000525_001403_004063_008167_006443_020627_041399_026897_102841,
  1_011377_000001_000003_000005_000009_000009_000027_000059_000177_000453_000659_000765_000431_004209_012679_010719_022473_081597_020057,
  1_011417_000001_000003_000003_000001_000003_000037_000091_000097_000159_000845_000519_002603_006979_006711_029781_053639_103357_111671,
  1_011427_000001_000001_000003_000003_000025_000015_000027_000009_000503_000719_000153_003071_000281_005341_032595_013069_006461_160319,
  1_011433_000001_000003_000003_000005_000029_000007_000119_000229_000117_000925_000465_001703_007277_010631_009429_041011_045181_229239,
  1_011434_000001_000001_000007_000007_000031_000063_000067_000055_000445_000039_001363_001369_001061_008555_029263_047341_049563_080445,
  1_011439_000001_000001_000007_000001_000023_000023_000049_000205_000371_000101_001963_002763_003475_000835_020371_051343_009771_069713,
  1_011444_000001_000003_000003_000007_000003_000029_000007_000185_000511_000093_001077_003971_002981_016367_012703_036179_047755_042767,
  1_011448_000001_000001_000001_000011_000027_000047_000043_000039_000129_000337_001249_003557_002871_013565_019525_046263_049203_148235,
  1_011461_000001_000003_000005_000011_000019_000003_000083_000151_000425_000199_000847_003751_001729_012457_021819_000295_053627_017555,
  1_011466_000001_000001_000003_000005_000007_000043_000021_000221_000093_000785_001851_003891_002103_005219_031845_058943_042461_160149,
  1_011468_000001_000003_000005_000009_000025_000011_000043_000171_000445_000335_001907_003401_000815_010341_017779_024895_007727_168143,
  1_011473_000001_000003_000001_000005_000027_000025_000041_000013_000239_000233_001861_003409_004325_002227_030197_059329_048501_168799,
  1_011489_000001_000003_000005_000013_000009_000055_000083_000185_000287_000083_001545_002803_002177_006195_014455_030541_075731_098915,
  1_011499_000001_000003_000003_000005_000025_000019_000005_000203_000303_000703_001861_003867_002683_008223_011107_054785_106053_135543,
  1_011516_000001_000001_000001_000013_000019_000007_000011_000197_000303_000541_000977_002083_004739_007971_002245_011029_077333_016573,
  1_011531_000001_000001_000001_000003_000011_000033_000077_000059_000283_000791_000365_004027_000487_010559_004543_058111_091861_102905,
  1_011533_000001_000003_000007_000007_000015_000003_000019_000051_000339_000377_000929_000693_001617_014057_007107_027181_007411_202843,
  1_011557_000001_000003_000003_000009_000019_000009_000073_000109_000333_000917_001227_002871_004893_011029_005619_027091_009381_213403,
  1_011572_000001_000001_000001_000009_000009_000013_000077_000131_000163_000619_000169_000315_001277_013705_016853_001179_086433_135427,
  1_011608_000001_000003_000005_000009_000015_000047_000057_000119_000325_000529_000893_002395_005159_005481_018689_006457_114733_159999,
  1_011635_000001_000003_000007_000005_000015_000009_000113_000235_000475_000093_000495_002983_002769_005209_007481_049699_046961_246393,
  1_011638_000001_000001_000007_000001_000005_000031_000113_000027_000359_000635_000955_002795_006289_011621_011059_002259_057443_243143,
  1_011644_000001_000003_000003_000013_000019_000033_000053_000141_000437_000415_000919_001375_002703_013731_031559_014115_050101_085199,
  1_011684_000001_000001_000007_000013_000027_000057_000111_000089_000089_000313_001107_004049_002485_000269_010197_036995_071381_112795,
  1_011702_000001_000001_000003_000007_000017_000023_000119_000123_000145_000213_001273_001707_004005_013815_023495_036359_014391_094287,
  1_011740_000001_000001_000007_000001_000005_000049_000081_000193_000105_001003_000413_002975_001725_005647_025447_043501_004431_115489,
  1_011749_000001_000003_000001_000005_000029_000013_000047_000037_000441_000955_000611_000853_007225_004959_008739_031703_048095_124085,
  1_011754_000001_000001_000005_000015_000031_000009_000125_000053_000229_000631_001031_003923_004417_012637_022093_046985_103417_193443,
  1_011764_000001_000001_000007_000001_000007_000009_000077_000011_000451_000615_001259_003097_001513_013641_026845_017399_063661_009231,
  1_011767_000001_000001_000007_000013_000025_000047_000125_000001_000333_000599_001133_003527_007451_002849_027227_040015_118185_024737,
  1_011784_000001_000001_000005_000005_000031_000015_000085_000037_000121_000677_000593_002757_000739_000839_003939_036339_116663_000955,
  1_011789_000001_000003_000001_000011_000019_000013_000087_000109_000149_000215_001811_003813_007699_016189_012841_052081_104545_245819,
  1_011795_000001_000001_000007_000003_000031_000017_000099_000023_000377_000131_000821_001167_004437_015727_020753_008163_043719_007243,
  1_011798_000001_000003_000007_000013_000021_000005_000005_000167_000009_001009_001013_000797_006145_002855_019969_059887_003419_238661,
  1_011804_000001_000001_000007_000001_000005_000039_000047_000091_000185_000139_000959_003149_003423_008909_002045_018187_071935_238605,
  1_011818_000001_000003_000005_000011_000029_000063_000105_000043_000027_000221_000879_000181_001499_010343_027135_000823_004893_101707,
  1_011820_000001_000003_000005_000011_000005_000013_000059_000083_000315_000999_001205_000939_003661_003081_015551_013791_049027_026843,
  1_011860_000001_000001_000001_000005_000003_000057_000105_000169_000123_000463_001471_000445_000743_013353_017661_023437_035451_115919,
  1_011869_000001_000001_000005_000011_000009_000003_000041_000063_000501_000861_000153_001591_001379_005189_024483_008073_043319_248959,
  1_011874_000001_000001_000007_000003_000029_000045_000051_000177_000001_000961_001493_002179_003723_001923_001517_044823_081613_194641,
  1_011903_000001_000001_000005_000011_000017_000017_000061_000141_000005_000529_000379_002509_001487_013141_010877_018603_040569_069639,
  1_011916_000001_000001_000005_000015_000001_000015_000033_000219_000269_000557_000007_003627_000183_006975_004627_015235_051863_172393]

def dirRows18_0_7 : List Nat := [
  1_011927_000001_000003_000007_000009_000001_000037_000013_000075_000151_000153_001693_002835_003093_008847_006721_044135_128931_230745,
  1_011933_000001_000001_000003_000013_000029_000063_000033_000153_000503_000137_000401_002315_002223_010843_004235_037295_103249_183899,
  1_011962_000001_000001_000007_000011_000015_000025_000049_000055_000039_000013_000269_003119_003445_008265_016781_057239_097489_204841,
  1_012009_000001_000001_000001_000001_000025_000057_000117_000199_000041_000351_000477_001891_007913_014439_025305_064811_057731_184265,
  1_012020_000001_000003_000003_000001_000013_000041_000033_000053_000381_000031_001861_002207_001497_015539_023589_053215_036887_134007,
  1_012035_000001_000001_000005_000007_000015_000037_000013_000099_000017_000325_000643_002943_007967_011531_021301_005125_063201_101203,
  1_012041_000001_000001_000007_000011_000023_000021_000119_000151_000457_000929_001917_003123_001133_011861_027889_040421_090949_113237,
  1_012049_000001_000003_000005_000009_000013_000035_000111_000083_000371_000589_001507_003559_000773_005895_031453_040865_124103_250473,
  1_012065_000001_000003_000003_000015_000011_000007_000093_000163_000285_000763_002023_001047_003349_013575_022571_021513_056081_204765,
  1_012072_000001_000003_000003_000005_000019_000019_000047_000025_000049_000717_001155_003901_000407_002699_030961_055647_096043_185559,
  1_012098_000001_000001_000001_000007_000029_000001_000049_000087_000311_000435_001235_001041_006595_001639_032495_044245_006593_236331,
  1_012100_000001_000003_000007_000009_000027_000013_000001_000041_000075_000953_001635_000101_007231_013019_014773_017315_120993_111215,
  1_012107_000001_000001_000005_000009_000023_000031_000087_000047_000083_000791_001239_001453_005459_004847_007285_032667_045991_103593,
  1_012167_000001_000003_000001_000003_000027_000047_000097_000191_000005_000961_001191_003897_006821_004257_022047_031557_052603_251405,
  1_012202_000001_000001_000005_000003_000023_000045_000103_000115_000287_000047_000093_002761_006467_014031_021881_031631_047605_237635,
  1_012207_000001_000003_000007_000015_000023_000041_000063_000239_000115_000655_001949_001969_003145_000091_016735_049295_117995_040537,
  1_012233_000001_000001_000007_000011_000005_000025_000099_000247_000011_000707_001497_000785_006055_008521_012179_056363_110131_055449,
  1_012269_000001_000001_000001_000007_000005_000031_000099_000007_000285_000281_001207_001173_007637_009595_031413_016597_096157_039059,
  1_012290_000001_000003_000007_000007_000003_000049_000079_000069_000057_000523_000065_002785_002907_011295_016199_025845_051801_067417,
  1_012304_000001_000001_000003_000001_000001_000053_000057_000117_000001_000927_001787_003059_007441_014663_010881_002225_029375_093717,
  1_012314_000001_000001_000005_000005_000029_000017_000067_000035_000475_000367_000155_003463_002339_006239_031073_056169_130309_028981,
  1_012340_000001_000001_000001_000005_000007_000053_000061_000105_000355_000817_000869_002863_006041_011459_004151_061115_100689_032917,
  1_012416_000001_000003_000005_000011_000031_000011_000033_000105_000437_000767_000101_002979_003911_004859_015551_023545_010705_006271,
  1_012425_000001_000001_000007_000005_000001_000017_000109_000205_000409_000893_000889_002181_006167_014273_025389_050279_005497_191755,
  1_012428_000001_000003_000007_000015_000029_000011_000079_000101_000123_000399_001159_001263_003513_013169_002199_041057_098639_227107,
  1_012446_000001_000001_000003_000011_000013_000031_000051_000119_000257_000829_000337_003267_007673_015459_026681_004041_089429_198607,
  1_012462_000001_000003_000007_000011_000023_000029_000049_000159_000327_000415_000857_002411_002429_011839_020263_061813_031811_225443,
  1_012476_000001_000001_000003_000011_000007_000061_000061_000119_000431_000299_001815_002857_007605_007517_015137_013727_073021_199325,
  1_012496_000001_000001_000007_000003_000005_000019_000051_000019_000059_000637_000591_002999_005997_013487_000807_004887_112189_226597,
  1_012511_000001_000001_000001_000013_000021_000005_000055_000167_000463_000679_000891_003597_000785_007717_017495_051681_055957_048561,
  1_012518_000001_000001_000005_000005_000009_000055_000055_000143_000193_000839_000785_001713_007457_011591_015803_002479_124663_072631,
  1_012530_000001_000003_000005_000009_000021_000027_000109_000091_000483_000905_001369_002573_007173_013977_020131_017637_127477_066457,
  1_012532_000001_000001_000005_000007_000031_000017_000043_000153_000505_000413_000867_000769_006947_010815_018805_005957_027715_024529,
  1_012539_000001_000003_000005_000009_000013_000041_000107_000199_000069_001019_002037_003221_001081_015051_006713_046379_017223_085453,
  1_012567_000001_000003_000003_000007_000023_000051_000045_000133_000227_000373_001815_003795_005567_007153_025003_064951_075377_174115,
  1_012597_000001_000001_000007_000015_000007_000051_000033_000239_000113_000133_001213_000327_004841_011297_001093_040013_060843_099845,
  1_012601_000001_000001_000001_000011_000003_000037_000033_000107_000275_000747_001451_001787_005029_003101_011575_036555_046181_221643,
  1_012602_000001_000001_000003_000003_000029_000053_000057_000067_000209_000153_000345_002897_005657_008907_014159_009899_102487_237721,
  1_012622_000001_000003_000001_000007_000007_000059_000017_000151_000423_000903_002035_000861_001057_002399_028547_003659_029583_100651,
  1_012693_000001_000001_000005_000015_000027_000053_000101_000017_000405_000869_001253_001923_000999_007787_023621_004351_048611_047129,
  1_012707_000001_000003_000007_000011_000013_000043_000061_000161_000043_000831_002021_000579_005353_012451_032261_039885_090051_034407,
  1_012713_000001_000001_000001_000005_000025_000019_000037_000033_000037_000059_001399_001587_001517_004261_031215_033777_050447_087049,
  1_012716_000001_000001_000003_000001_000019_000017_000113_000031_000385_000135_000143_003997_001365_002625_022591_008887_031353_240603,
  1_012734_000001_000003_000007_000011_000021_000007_000055_000171_000233_001007_001321_002903_002457_003941_019667_049115_099119_185989,
  1_012763_000001_000003_000007_000009_000003_000031_000083_000099_000303_000443_000099_002285_001491_015897_021735_001575_074449_059615,
  1_012765_000001_000003_000001_000005_000029_000037_000125_000213_000277_000115_000255_000137_006071_013561_023871_048129_120211_168603,
  1_012799_000001_000001_000007_000003_000009_000021_000093_000239_000399_000021_000009_000409_003403_009517_006421_017121_065697_251985,
  1_012843_000001_000001_000001_000015_000027_000035_000017_000113_000471_000357_001703_000871_001803_003495_027437_048343_086425_155245,
  1_012853_000001_000003_000007_000011_000019_000045_000051_000195_000345_000077_001403_002527_003405_014057_031965_017375_035107_246545,
  1_012865_000001_000003_000005_000007_000007_000005_000115_000039_000051_000261_001883_001793_003423_003613_020399_027267_099875_119719,
  1_012866_000001_000003_000003_000009_000021_000023_000065_000069_000261_000079_000151_003387_007789_013275_030135_052229_040787_181297,
  1_012919_000001_000001_000005_000013_000019_000049_000111_000125_000433_000099_001673_002091_005447_009377_009085_004659_075121_105809,
  1_012926_000001_000003_000007_000001_000003_000027_000107_000109_000245_000431_001727_003269_002099_010777_021843_063377_047343_126269,
  1_012936_000001_000003_000001_000015_000007_000017_000107_000153_000037_000287_001873_000573_005025_003735_032545_035693_038083_089569,
  1_012944_000001_000003_000001_000003_000009_000051_000099_000247_000045_000703_001231_001895_006309_012137_014697_025441_129701_198811,
  1_012959_000001_000003_000003_000011_000005_000043_000001_000031_000359_000563_001013_003475_003935_007855_010085_015279_025109_225643,
  1_012965_000001_000003_000003_000003_000009_000047_000049_000193_000223_000023_000391_000847_007233_014955_010645_050535_005415_119791,
  1_012980_000001_000003_000001_000007_000003_000007_000057_000189_000219_000287_000401_001767_005585_013983_018485_056725_071905_033779,
  1_013004_000001_000003_000005_000015_000023_000017_000115_000223_000035_000263_000345_003459_000857_001467_030255_050127_072985_062509,
  1_013016_000001_000003_000001_000009_000003_000027_000125_000043_000047_000183_001421_000319_004273_010701_021761_023947_022531_010855,
  1_013019_000001_000001_000003_000015_000013_000055_000077_000001_000295_000841_001115_004093_007993_013309_024851_035411_105201_188543,
  1_013037_000001_000003_000003_000005_000019_000039_000101_000019_000225_000997_001999_000407_003147_015393_030379_026221_021685_114167,
  1_013055_000001_000003_000003_000003_000023_000015_000003_000057_000045_000381_000047_001839_005491_006775_018477_051443_000757_183111,
  1_013063_000001_000003_000003_000007_000031_000027_000107_000229_000001_000977_000125_001137_004873_014381_008705_064641_038447_239887,
  1_013098_000001_000001_000003_000013_000009_000035_000049_000187_000459_000407_001677_002007_001091_012385_008911_038221_108681_171641,
  1_013103_000001_000001_000003_000005_000007_000061_000115_000155_000437_000829_001041_002191_001489_001269_027613_048713_040095_206057,
  1_013106_000001_000003_000007_000001_000023_000001_000017_000215_000363_000119_000845_000987_005619_005857_011307_063171_076921_201767,
  1_013115_000001_000001_000007_000009_000029_000023_000063_000247_000037_000199_000103_001215_000913_012865_024089_035101_117677_261393,
  1_013143_000001_000001_000001_000001_000003_000019_000007_000159_000183_000275_000467_003629_006575_003351_026955_029247_119007_067895,
  1_013144_000001_000001_000007_000013_000001_000033_000031_000211_000103_000495_000417_000817_007129_010169_011445_041511_073101_185357,
  1_013153_000001_000001_000003_000005_000003_000027_000099_000001_000425_000295_000131_000835_001833_004547_008777_029489_060303_191437,
  1_013171_000001_000001_000005_000005_000031_000063_000071_000189_000317_000061_000385_000891_002257_008281_017325_012207_125847_028259,
  1_013184_000001_000001_000003_000003_000019_000019_000097_000083_000495_000551_001339_001699_003047_013623_027731_028999_101225_146139,
  1_013193_000001_000003_000005_000007_000025_000009_000037_000073_000239_000047_000583_003337_001329_000079_030109_012451_010163_062943,
  1_013199_000001_000001_000003_000001_000009_000001_000031_000181_000231_000441_001241_000233_006049_002401_009867_058911_020599_026321,
  1_013207_000001_000003_000001_000015_000021_000043_000021_000043_000273_000865_000079_002069_003375_016069_012355_056355_009735_243719,
  1_013217_000001_000003_000005_000011_000013_000021_000005_000073_000423_000761_001947_002935_003931_005573_000083_058251_113115_245767,
  1_013227_000001_000003_000007_000007_000015_000049_000073_000211_000309_000635_001257_002185_007151_011959_026885_045955_103503_161709,
  1_013232_000001_000003_000001_000015_000031_000053_000029_000035_000343_000087_001833_002483_001847_004709_006105_021961_106541_046741,
  1_013276_000001_000001_000007_000007_000021_000043_000041_000051_000029_000521_000713_003693_000483_011777_010453_043691_097585_133193,
  1_013283_000001_000003_000003_000011_000005_000045_000003_000179_000183_000255_001291_001795_005721_010911_018395_064349_023141_099481,
  1_013307_000001_000001_000001_000005_000005_000025_000061_000169_000475_000953_000617_000559_005945_016377_030063_030079_083305_081745,
  1_013317_000001_000001_000005_000011_000029_000059_000113_000037_000153_000807_000135_002639_004535_007079_006387_063523_089669_198803,
  1_013330_000001_000001_000007_000007_000019_000023_000071_000051_000165_000733_001427_002473_000331_005027_009299_020617_126775_091619,
  1_013345_000001_000003_000005_000007_000031_000035_000117_000235_000029_000677_001243_000281_006287_000535_004783_037781_130929_014193,
  1_013363_000001_000001_000005_000003_000025_000001_000029_000109_000289_000631_000041_000361_005537_009657_007475_063749_050325_169791,
  1_013387_000001_000003_000003_000015_000021_000053_000085_000043_000341_000907_000475_003257_002541_010397_030847_063681_121427_192135,
  1_013426_000001_000001_000001_000001_000009_000059_000059_000233_000335_000345_001749_004007_001833_007789_021015_048939_015967_201321,
  1_013428_000001_000001_000001_000005_000011_000009_000101_000243_000391_001003_001019_000311_003707_010223_021627_008237_053861_159785,
  1_013431_000001_000003_000007_000015_000005_000003_000109_000197_000507_000947_000833_001161_004021_005575_008081_045381_112597_070407,
  1_013489_000001_000001_000003_000001_000007_000063_000063_000053_000481_001003_000043_002503_002303_012593_021403_002965_005377_091491,
  1_013501_000001_000001_000001_000001_000029_000045_000049_000073_000253_000197_001245_001509_004747_006207_028321_059193_112687_083719,
  1_013533_000001_000001_000007_000003_000011_000051_000023_000083_000185_000643_001427_000227_002261_012521_027033_005129_053111_034975,
  1_013589_000001_000001_000007_000003_000005_000041_000055_000175_000447_000603_000723_002141_001189_004921_016905_002463_083641_247241,
  1_013600_000001_000003_000003_000013_000005_000011_000095_000059_000391_000319_001675_000329_007559_011585_028905_027843_106667_015531,
  1_013603_000001_000003_000003_000003_000027_000017_000103_000115_000447_000657_000267_002541_000665_007819_004155_032191_060999_048737,
  1_013623_000001_000001_000005_000007_000007_000049_000087_000171_000457_000149_001699_004081_003913_007889_029517_003339_033139_008925,
  1_013665_000001_000001_000001_000009_000011_000051_000087_000115_000429_000505_001665_002361_005811_001621_012727_033703_052255_093835,
  1_013672_000001_000003_000003_000005_000027_000011_000035_000049_000281_000607_001791_004065_005103_005253_000975_020353_038253_139363,
  1_013675_000001_000001_000005_000009_000029_000015_000037_000141_000445_000751_001219_002217_007207_014981_021113_003313_107127_135567]

def dirRows18_0_8 : List Nat := [
  1_013708_000001_000003_000003_000015_000001_000041_000023_000027_000167_000609_000913_000631_000923_006939_009793_057869_126577_145271,
  1_013713_000001_000001_000003_000007_000027_000047_000127_000005_000213_000575_000559_002541_003457_002903_019529_053395_105353_212607,
  1_013720_000001_000003_000001_000013_000027_000041_000031_000111_000371_001019_000241_002075_002571_010739_028163_016093_041127_069783,
  1_013730_000001_000001_000005_000001_000021_000009_000015_000141_000287_000675_001721_002291_006587_007503_006363_009109_033547_259627,
  1_013735_000001_000003_000007_000003_000003_000053_000007_000153_000183_000761_000191_003735_002619_011153_019601_033855_082345_072755,
  1_013767_000001_000003_000001_000009_000019_000021_000041_000105_000281_000833_000981_002733_007179_014691_018365_056283_053719_191601,
  1_013773_000001_000001_000007_000011_000023_000001_000055_000213_000105_000517_000809_004087_000825_007011_015701_054047_123831_049833,
  1_013792_000001_000001_000007_000013_000027_000009_000111_000057_000357_000095_001489_000887_005273_002833_008757_009371_044637_094939,
  1_013843_000001_000001_000003_000005_000001_000017_000043_000031_000509_000353_000401_001077_007567_009657_015065_032017_008491_214477,
  1_013891_000001_000001_000001_000015_000007_000059_000041_000099_000101_000845_001479_002153_004281_012839_000237_054095_125873_057165,
  1_013946_000001_000003_000007_000013_000005_000017_000001_000249_000309_000351_000709_003943_007775_006449_026611_054019_121015_213535,
  1_013967_000001_000001_000001_000005_000007_000025_000033_000149_000291_000777_000161_002729_000117_004999_016781_023383_085161_071689,
  1_013976_000001_000001_000003_000011_000005_000063_000119_000165_000045_000135_001723_000811_001259_011055_028625_037559_128401_100715,
  1_014017_000001_000003_000007_000001_000001_000039_000011_000255_000423_000289_001359_002827_004637_004089_026659_058701_117403_133971,
  1_014030_000001_000001_000007_000001_000025_000009_000127_000121_000147_000831_000017_003521_001535_010931_017305_056671_022425_157341,
  1_014041_000001_000003_000001_000015_000005_000055_000095_000095_000169_000497_000739_002031_000339_013461_020619_024553_081805_090789,
  1_014054_000001_000001_000007_000007_000007_000019_000015_000203_000287_000673_001033_003857_002761_010835_011039_062329_037893_006119,
  1_014058_000001_000001_000003_000011_000019_000035_000055_000009_000399_000443_000583_000089_002387_000747_009551_009907_096871_175457,
  1_014060_000001_000001_000003_000001_000011_000057_000121_000089_000491_000133_000545_000683_005751_000839_025975_044725_059863_142671,
  1_014063_000001_000001_000003_000001_000023_000001_000111_000177_000001_000103_001933_002783_006857_000051_014547_005945_014757_039783,
  1_014078_000001_000003_000007_000013_000025_000013_000051_000247_000325_000361_001225_000015_001929_001729_025293_059495_082111_101809,
  1_014080_000001_000003_000003_000001_000019_000037_000067_000085_000105_000589_001273_002995_008017_001613_022189_002549_022671_072813,
  1_014089_000001_000003_000007_000009_000015_000041_000025_000043_000411_000663_000387_002861_003627_005839_000733_053479_076241_116763,
  1_014131_000001_000003_000003_000003_000017_000005_000073_000153_000133_000247_000881_002853_006059_002259_010181_063251_107089_022579,
  1_014134_000001_000003_000001_000005_000011_000015_000017_000235_000023_000015_000521_000235_004137_012705_024775_018197_056295_028035,
  1_014137_000001_000003_000005_000005_000013_000009_000077_000069_000019_000755_001663_001499_001049_012935_028835_055413_071511_221223,
  1_014188_000001_000001_000001_000001_000027_000031_000021_000039_000197_000519_001621_003703_002541_008865_021947_053605_114551_205697,
  1_014215_000001_000001_000001_000013_000011_000053_000041_000245_000495_000275_000385_003071_001913_011135_008571_058551_039049_005459,
  1_014222_000001_000003_000005_000005_000011_000063_000025_000173_000057_000441_001749_000079_003191_007733_013111_023453_118399_101845,
  1_014249_000001_000001_000003_000011_000029_000025_000119_000039_000065_000623_000517_001325_005981_008381_032031_025585_105537_214241,
  1_014292_000001_000003_000005_000009_000021_000043_000013_000069_000109_000311_001893_001941_002491_007815_004067_056749_033761_191145,
  1_014320_000001_000001_000001_000007_000009_000005_000123_000149_000065_000729_001967_003089_003757_002333_024587_036047_118105_146277,
  1_014339_000001_000003_000007_000013_000009_000035_000039_000219_000161_000093_000275_003619_000353_014595_024673_054753_117175_081891,
  1_014346_000001_000003_000003_000013_000015_000061_000095_000135_000271_000595_001103_000877_000747_002535_007733_025509_065673_062089,
  1_014353_000001_000003_000003_000005_000021_000021_000067_000005_000373_000377_000061_002337_000489_005801_023203_042377_007801_178095,
  1_014365_000001_000001_000007_000005_000025_000017_000061_000133_000181_000261_001627_001615_006851_004763_030353_053349_007545_066733,
  1_014384_000001_000003_000005_000007_000029_000003_000085_000231_000121_000669_001925_000403_000777_010605_024125_060819_008253_081209,
  1_014414_000001_000001_000005_000003_000005_000005_000001_000053_000009_000445_001339_002643_005527_013757_009409_031993_080845_097863,
  1_014428_000001_000001_000007_000013_000029_000049_000097_000089_000319_000349_001739_003615_001113_011791_017429_037195_001159_032211,
  1_014435_000001_000003_000005_000011_000009_000061_000109_000167_000119_000499_001157_003615_005773_008839_027915_047837_014945_187225,
  1_014483_000001_000001_000005_000001_000009_000003_000007_000179_000323_000279_000043_001337_004813_009917_002033_034657_130769_208089,
  1_014486_000001_000001_000003_000001_000031_000057_000057_000073_000021_000661_001861_001661_007619_012155_023123_049751_130697_074143,
  1_014506_000001_000003_000003_000013_000011_000061_000095_000075_000227_000491_000463_000597_002721_012323_026195_053657_044413_068965,
  1_014513_000001_000001_000007_000011_000005_000051_000103_000123_000203_000911_000203_001641_007009_009479_000303_037649_032751_172777,
  1_014520_000001_000001_000003_000007_000011_000059_000111_000005_000271_000863_000269_003457_000489_010877_008645_062567_024893_201587,
  1_014526_000001_000001_000005_000007_000029_000023_000127_000151_000371_000121_001103_003951_003107_015563_006243_001631_075065_107681,
  1_014528_000001_000001_000007_000015_000027_000045_000043_000083_000461_000673_000715_003245_000313_013731_021981_058853_046569_165463,
  1_014533_000001_000001_000001_000009_000007_000053_000063_000043_000003_000187_001325_000447_005113_004993_021807_024329_004499_030067,
  1_014576_000001_000003_000001_000009_000021_000045_000111_000231_000407_000213_001977_002269_002323_004595_030427_054753_095049_195409,
  1_014599_000001_000001_000001_000009_000029_000043_000089_000201_000499_000329_000847_003831_005403_013001_006037_014371_025805_169237,
  1_014613_000001_000001_000001_000011_000029_000061_000061_000203_000091_000189_001603_000939_006575_003195_004731_044923_033627_021683,
  1_014639_000001_000003_000003_000011_000007_000057_000093_000181_000479_000099_000681_002875_007649_005555_027087_006841_069859_153689,
  1_014644_000001_000001_000001_000009_000017_000045_000097_000047_000091_000879_001463_003041_002917_000769_013675_026489_088559_120991,
  1_014653_000001_000003_000007_000001_000011_000013_000043_000009_000483_000399_000793_003965_002375_004957_017747_050905_056987_231265,
  1_014662_000001_000003_000003_000013_000023_000045_000069_000067_000397_000437_001993_002569_008035_008531_027623_053567_123189_242515,
  1_014695_000001_000001_000001_000003_000005_000009_000021_000227_000499_000205_000431_003711_005307_015773_011337_006349_123507_095941,
  1_014704_000001_000003_000007_000001_000013_000015_000101_000091_000209_000611_000537_001427_000101_002619_010513_044323_092745_249127,
  1_014713_000001_000003_000003_000001_000021_000007_000079_000241_000273_000567_000605_002371_005427_015147_020139_040987_075551_236213,
  1_014725_000001_000001_000007_000011_000025_000019_000077_000209_000313_000663_000115_003697_003641_012461_009877_018331_070809_078923,
  1_014783_000001_000001_000005_000005_000029_000045_000007_000207_000001_000357_001089_003861_004161_003209_027845_020947_068909_125179,
  1_014810_000001_000003_000001_000013_000017_000011_000027_000165_000179_000489_001611_002801_002385_002971_006777_016149_059811_151043,
  1_014816_000001_000001_000003_000003_000017_000053_000121_000227_000007_000071_001855_000639_005135_006349_007163_022997_112551_044167,
  1_014822_000001_000003_000001_000011_000015_000009_000125_000213_000485_000291_001781_003621_007529_013353_013903_024151_130253_187097,
  1_014828_000001_000003_000001_000003_000001_000061_000039_000157_000455_000945_000739_000589_007259_007149_016455_012649_072003_152419,
  1_014883_000001_000001_000003_000003_000031_000023_000017_000255_000319_000907_000563_002571_002149_015323_020289_046061_032769_184353,
  1_014889_000001_000003_000007_000009_000021_000051_000027_000013_000495_000909_002039_001435_004791_010037_030119_003405_022535_042247,
  1_014904_000001_000001_000003_000015_000011_000025_000123_000149_000185_000635_000473_000527_000433_010373_018205_000853_094619_202507,
  1_014917_000001_000001_000007_000015_000007_000039_000007_000069_000157_000533_000369_004031_001335_004279_008049_028491_103753_257477,
  1_014927_000001_000003_000001_000015_000029_000051_000113_000077_000005_000961_001863_001477_005009_009519_032029_002367_055705_149597,
  1_014941_000001_000003_000001_000005_000019_000043_000049_000107_000059_000693_000867_003011_002703_003633_024567_052621_035839_134823,
  1_014946_000001_000003_000003_000007_000019_000015_000081_000105_000023_000375_000451_003017_001263_007589_024453_021885_057651_052613,
  1_014952_000001_000001_000003_000007_000003_000059_000019_000001_000003_000243_001891_002041_004707_015557_028885_005959_022517_237131,
  1_015010_000001_000003_000007_000011_000025_000033_000105_000015_000245_000247_001357_001255_007463_004815_013727_041687_112425_058827,
  1_015012_000001_000001_000007_000001_000019_000031_000037_000201_000217_000127_000927_000763_006359_009951_002581_049171_104305_215923,
  1_015033_000001_000001_000007_000007_000013_000009_000009_000139_000363_000085_001703_003615_002545_015991_020677_012109_054951_002171,
  1_015041_000001_000003_000001_000013_000027_000003_000037_000195_000185_000829_000815_001621_002917_008643_029071_045523_038475_243505,
  1_015047_000001_000001_000007_000003_000019_000029_000091_000085_000331_000231_001609_002583_001091_004191_029929_055377_105077_168425,
  1_015066_000001_000001_000005_000003_000029_000035_000003_000061_000389_000339_000705_000473_002075_007373_009699_038809_060415_066423,
  1_015068_000001_000003_000001_000005_000017_000025_000017_000037_000335_000787_001891_001861_004325_012721_009675_013671_018655_235443,
  1_015072_000001_000003_000003_000005_000023_000013_000083_000191_000263_000325_001847_001717_007089_015709_026567_044489_066523_003107,
  1_015095_000001_000003_000007_000007_000025_000029_000063_000055_000009_000481_000899_000669_005481_011227_001637_017017_124509_102775,
  1_015150_000001_000001_000001_000005_000021_000041_000101_000093_000129_001023_000561_002969_001525_002929_032729_054513_004359_028745,
  1_015152_000001_000001_000005_000013_000015_000013_000079_000009_000257_000535_000861_002703_006161_006659_010369_000007_117467_146651,
  1_015175_000001_000001_000003_000013_000031_000011_000043_000095_000441_000921_001323_000343_005339_013149_019643_024253_032055_180327,
  1_015176_000001_000001_000005_000015_000011_000027_000109_000149_000255_001021_000249_001913_005213_000301_009939_049779_026097_066007,
  1_015210_000001_000003_000001_000011_000015_000033_000053_000159_000433_000167_001107_003577_006231_008309_028125_055381_127309_014459,
  1_015245_000001_000003_000005_000009_000007_000003_000045_000139_000133_000359_000537_000805_003931_005181_000915_063317_086227_231573,
  1_015258_000001_000001_000001_000003_000011_000031_000097_000127_000117_000151_000711_002457_002777_003855_021829_007913_030785_141449,
  1_015263_000001_000003_000007_000013_000011_000017_000065_000063_000289_000851_001929_004021_000105_005207_017085_064119_048659_031687,
  1_015264_000001_000001_000007_000011_000031_000057_000063_000251_000341_000727_000505_001851_000783_016191_009335_039421_014793_238215,
  1_015279_000001_000003_000003_000011_000023_000013_000119_000195_000117_000579_000693_003059_002967_012791_026905_028527_013393_011869,
  1_015301_000001_000003_000007_000011_000023_000007_000061_000143_000409_000309_000651_003321_004027_001351_010339_018451_018447_235665,
  1_015306_000001_000001_000001_000009_000013_000021_000007_000065_000103_000789_000973_000475_002831_013337_018989_040573_105375_002221,
  1_015313_000001_000003_000005_000015_000003_000059_000115_000061_000365_000653_000523_003927_008175_006751_032561_055919_064903_139005,
  1_015329_000001_000003_000003_000013_000001_000007_000051_000063_000179_000525_001899_000373_003797_006329_005539_032669_065903_154993,
  1_015341_000001_000003_000001_000001_000031_000053_000087_000039_000317_000071_001899_000925_004719_011645_027125_050391_116491_219271,
  1_015367_000001_000003_000007_000013_000007_000023_000001_000057_000333_000277_000893_003245_001417_013115_021835_025879_091305_054691,
  1_015368_000001_000003_000001_000011_000027_000005_000109_000069_000221_000453_000299_000517_000609_011959_027789_033107_046559_121673,
  1_015386_000001_000003_000005_000007_000027_000007_000119_000169_000129_000643_000173_002479_006163_011159_011897_057153_011347_135337,
  1_015404_000001_000001_000005_000013_000013_000059_000021_000013_000429_000601_000267_001635_002579_012053_031583_014847_078187_217099]

def dirRows18_0_9 : List Nat := [
  1_015422_000001_000003_000005_000009_000005_000003_000125_000159_000411_000015_000479_000933_006307_009707_023491_006501_070993_161365,
  1_015436_000001_000001_000007_000007_000003_000033_000087_000177_000283_000825_001935_001545_007071_009975_001795_048277_115725_173439,
  1_015444_000001_000003_000003_000009_000019_000063_000017_000119_000013_000337_002021_002221_003237_003253_018661_015479_059377_076095,
  1_015467_000001_000001_000001_000011_000017_000015_000093_000249_000333_000171_000575_003251_005413_003587_022807_029273_056461_097801,
  1_015498_000001_000003_000003_000011_000013_000007_000027_000167_000389_000693_001473_000555_001603_003167_003985_003841_100283_195253,
  1_015503_000001_000003_000007_000001_000023_000007_000089_000231_000085_000797_001935_002557_004365_002221_021069_044055_077723_226547,
  1_015528_000001_000003_000001_000005_000005_000049_000047_000187_000071_000903_001279_003219_008041_010915_005249_017755_080077_003479,
  1_015534_000001_000001_000003_000013_000005_000053_000035_000025_000183_000791_001651_001041_001221_002171_026221_020649_126851_163047,
  1_015536_000001_000001_000005_000009_000029_000003_000075_000031_000385_000293_000171_003023_002075_014541_030879_013895_067637_087831,
  1_015559_000001_000003_000005_000007_000003_000041_000115_000213_000023_000895_000361_000027_005839_012447_013829_029183_106539_134891,
  1_015565_000001_000003_000007_000007_000011_000039_000099_000229_000195_000633_000837_003697_001161_015119_020831_027371_092195_026993,
  1_015583_000001_000001_000005_000009_000025_000017_000005_000169_000475_000073_001451_002057_003671_012801_009671_057427_025321_154969,
  1_015599_000001_000003_000005_000011_000025_000023_000009_000145_000341_000339_001855_000981_008041_000569_019851_029521_021767_136505,
  1_015602_000001_000001_000001_000001_000003_000009_000101_000253_000475_000529_000387_001893_005509_005763_029555_013307_030001_105057,
  1_015616_000001_000003_000003_000005_000017_000023_000127_000161_000375_000817_001229_001197_001097_003053_014351_021213_012501_137397,
  1_015626_000001_000001_000001_000009_000007_000001_000057_000185_000281_000065_000181_002483_004739_004353_029837_040613_032489_023317,
  1_015667_000001_000001_000003_000009_000005_000035_000043_000191_000409_000095_000537_002465_000515_001633_020887_032535_043863_199885,
  1_015684_000001_000003_000003_000013_000019_000049_000041_000051_000003_000979_001623_003323_007711_003707_029417_058011_114467_227499,
  1_015711_000001_000001_000001_000011_000021_000007_000023_000051_000039_000025_001971_000213_000369_009149_012845_057631_016597_022031,
  1_015745_000001_000003_000003_000011_000027_000059_000071_000037_000461_000353_002041_001961_004643_006953_018129_060337_082769_020819,
  1_015763_000001_000001_000003_000011_000025_000019_000017_000005_000503_000227_002021_000733_002867_000201_025779_049811_081167_095437,
  1_015779_000001_000003_000003_000015_000007_000053_000035_000143_000027_000937_000215_003249_004151_001933_025267_018047_035131_025903,
  1_015811_000001_000001_000001_000003_000003_000039_000071_000099_000291_000097_001389_003803_002881_009765_011277_020071_015133_037349,
  1_015814_000001_000001_000007_000011_000009_000055_000001_000241_000391_000935_001555_003585_001807_010057_002633_014023_014409_199643,
  1_015817_000001_000003_000003_000003_000019_000009_000057_000237_000107_000869_000147_002673_005271_008999_020723_063017_075989_020131,
  1_015853_000001_000003_000003_000003_000025_000011_000061_000077_000119_000657_002011_003489_007835_004473_002531_065231_104797_161443,
  1_015881_000001_000001_000005_000005_000011_000063_000025_000093_000181_000797_000367_003357_005291_005087_028661_034093_075195_165345,
  1_015890_000001_000001_000001_000007_000017_000001_000077_000149_000059_000633_001551_001305_007677_008671_017457_064037_104451_112387,
  1_015899_000001_000003_000001_000001_000015_000033_000037_000187_000247_000261_001101_003451_007747_012197_022465_030589_012573_204517,
  1_015905_000001_000003_000003_000011_000003_000039_000071_000139_000145_000139_000101_002815_003457_014033_004531_042133_054147_071259,
  1_015915_000001_000003_000001_000001_000023_000037_000019_000113_000443_000057_000439_002929_003835_005431_011189_004539_072531_124453,
  1_015937_000001_000003_000003_000005_000003_000017_000021_000217_000041_000665_001565_003753_005289_009789_029205_016453_088979_171387,
  1_015950_000001_000003_000003_000013_000027_000015_000015_000223_000231_000311_000311_001143_008113_013863_003191_051103_109437_245557,
  1_016002_000001_000001_000003_000013_000011_000059_000007_000191_000477_000683_000353_002845_007623_009035_000453_048429_040111_162859,
  1_016041_000001_000003_000007_000005_000029_000037_000055_000059_000259_000851_000861_001951_007847_008537_030107_002999_059137_155615,
  1_016042_000001_000003_000007_000011_000003_000013_000073_000147_000393_000327_001289_000037_000795_001413_019215_028345_124301_023135,
  1_016052_000001_000001_000005_000011_000029_000017_000107_000069_000433_000845_001351_002551_000807_015315_015511_039475_084879_129405,
  1_016121_000001_000003_000003_000009_000015_000003_000023_000005_000211_000871_000689_002319_000039_002215_025171_043169_113715_186049,
  1_016132_000001_000001_000003_000007_000003_000037_000023_000009_000453_000649_000373_001273_001539_006221_027469_044675_013513_131179,
  1_016136_000001_000003_000001_000005_000029_000041_000119_000133_000037_000761_001193_002311_004945_007337_017027_012873_051489_160633,
  1_016150_000001_000003_000001_000003_000021_000063_000075_000115_000105_000223_000933_000445_005789_004611_013609_002873_016679_222895,
  1_016153_000001_000001_000007_000005_000017_000013_000015_000217_000193_000863_001319_002337_003055_014879_008669_005705_042965_166443,
  1_016180_000001_000001_000007_000011_000003_000055_000057_000131_000289_000843_001693_000881_006737_005557_018365_012393_038479_189177,
  1_016190_000001_000001_000003_000005_000003_000059_000013_000123_000397_000479_000079_000569_000535_002529_026225_043475_076925_187763,
  1_016192_000001_000001_000005_000015_000015_000037_000001_000097_000489_000331_001499_001759_003621_005373_001425_006477_045805_235511,
  1_016195_000001_000003_000001_000003_000007_000051_000055_000157_000061_000751_001881_004093_002557_011129_023239_016335_008949_205007,
  1_016210_000001_000001_000001_000001_000013_000021_000067_000141_000085_001023_000223_000747_001951_010279_006399_049887_100437_076757,
  1_016225_000001_000001_000003_000011_000001_000051_000029_000033_000173_000769_000879_002883_000417_015031_013377_063919_118803_087969,
  1_016256_000001_000001_000001_000005_000001_000001_000017_000153_000081_000691_000961_003399_005005_010617_018467_013775_034905_241349,
  1_016266_000001_000001_000001_000013_000007_000037_000057_000187_000389_000575_001827_002017_004541_010513_023409_030945_126855_239657,
  1_016274_000001_000001_000005_000005_000017_000041_000083_000177_000285_000695_000029_001653_000953_006377_013571_058663_009265_100759,
  1_016302_000001_000003_000005_000003_000005_000013_000027_000153_000207_000699_001805_000947_000979_002719_000389_061953_016991_160073,
  1_016310_000001_000001_000007_000013_000017_000037_000113_000185_000239_000455_001557_003201_001111_004875_023197_041883_070507_255047,
  1_016322_000001_000003_000005_000011_000009_000051_000047_000137_000413_001015_000259_001829_006043_011757_022317_015155_107827_171003,
  1_016339_000001_000001_000001_000013_000027_000007_000049_000091_000285_000013_002007_003469_001223_002483_016155_008413_010529_224195,
  1_016345_000001_000001_000007_000003_000009_000049_000119_000081_000331_000187_001695_001729_000533_006359_007053_034665_037541_100225,
  1_016348_000001_000003_000007_000001_000007_000035_000115_000091_000479_000515_001249_000121_002885_016383_001777_044205_086459_255885,
  1_016357_000001_000001_000007_000013_000013_000027_000011_000049_000221_000829_001787_002889_003875_001679_025333_001323_009813_189373,
  1_016382_000001_000003_000007_000005_000031_000005_000117_000077_000209_000619_000191_002969_002221_015339_011461_064201_130461_204467,
  1_016402_000001_000003_000001_000001_000029_000005_000091_000031_000313_000901_001501_002837_003615_007765_000341_013873_021663_260637,
  1_016461_000001_000001_000001_000009_000001_000041_000097_000015_000141_000901_001309_003341_004871_016033_012343_001555_094989_078295,
  1_016469_000001_000001_000007_000003_000003_000015_000001_000029_000445_000059_000475_003033_004227_003219_006093_058953_092179_049343,
  1_016474_000001_000001_000005_000003_000027_000025_000109_000013_000219_000983_000131_002517_001161_016063_032737_006077_091183_037457,
  1_016483_000001_000003_000003_000001_000003_000001_000085_000147_000017_000543_001475_003873_003719_002737_030977_015953_066077_258979,
  1_016497_000001_000003_000005_000001_000029_000009_000021_000051_000005_000985_001177_003287_002183_007301_013713_053403_038439_195863,
  1_016523_000001_000001_000007_000015_000031_000053_000047_000173_000477_000439_000751_001019_003371_009319_017995_029029_090657_209277,
  1_016534_000001_000001_000005_000005_000017_000005_000059_000115_000375_000231_001891_001321_003639_016117_032639_028793_068213_041091,
  1_016550_000001_000003_000005_000011_000017_000015_000013_000011_000459_000767_000849_001407_006611_006409_021515_063175_127155_171959,
  1_016564_000001_000001_000005_000001_000017_000049_000061_000161_000399_000137_000845_002673_002431_015343_000389_042337_023031_094811,
  1_016582_000001_000001_000001_000009_000021_000023_000075_000177_000351_000197_001619_002443_006829_003773_016399_031949_044975_221363,
  1_016591_000001_000001_000003_000001_000011_000019_000103_000061_000135_000863_001427_002657_004553_001277_020249_003973_025467_018847,
  1_016609_000001_000003_000003_000013_000017_000031_000019_000163_000323_000195_000603_004069_003181_012069_022117_044229_023585_202785,
  1_016642_000001_000001_000007_000005_000017_000003_000077_000111_000491_000829_001375_002829_005599_014057_021387_052345_108281_211285,
  1_016648_000001_000003_000003_000001_000017_000043_000071_000013_000321_000393_001803_000727_005101_013485_008693_060505_013893_003467,
  1_016656_000001_000001_000005_000001_000023_000031_000121_000015_000215_000215_001113_003335_007431_004863_031429_049903_059403_060797,
  1_016662_000001_000003_000003_000009_000021_000043_000061_000171_000361_000323_001895_003647_000729_008809_009351_014573_093593_017485,
  1_016665_000001_000003_000003_000007_000007_000019_000045_000247_000203_000757_001941_003753_005317_013239_018945_026173_043929_066889,
  1_016678_000001_000001_000001_000015_000005_000017_000011_000021_000193_000941_000517_000191_006067_008403_027339_031035_034767_028675,
  1_016701_000001_000003_000001_000007_000027_000059_000027_000007_000491_000551_000867_003693_000391_009799_011051_028347_057555_023079,
  1_016713_000001_000003_000003_000001_000025_000021_000063_000253_000459_000603_000107_001229_001433_004263_024341_020493_040165_254725,
  1_016716_000001_000003_000005_000003_000009_000007_000063_000195_000019_000973_000047_000811_002207_003613_008911_017495_062403_077951,
  1_016758_000001_000003_000005_000011_000005_000013_000083_000125_000467_000111_001819_003807_004259_002885_029577_013539_069859_097379,
  1_016768_000001_000001_000005_000015_000005_000033_000109_000203_000129_000587_000009_003025_002839_011405_011257_007779_030311_014015,
  1_016797_000001_000001_000007_000015_000005_000047_000103_000199_000391_000061_000129_003511_001295_015067_023919_002941_120463_021665,
  1_016804_000001_000001_000005_000005_000007_000007_000125_000153_000365_000815_001423_004053_000875_002405_021291_026785_031371_211045,
  1_016811_000001_000003_000003_000009_000031_000047_000001_000247_000197_001019_000985_002277_000875_003969_015093_015561_110101_156547,
  1_016813_000001_000001_000003_000001_000009_000047_000071_000125_000017_000501_001783_002337_000483_012719_022453_016701_102639_152955,
  1_016881_000001_000001_000003_000011_000013_000031_000009_000063_000261_000257_000319_001443_005011_009799_018639_053081_056879_102335,
  1_016888_000001_000003_000003_000001_000005_000059_000127_000163_000323_000997_001755_001445_002285_004935_022123_000815_115131_001009,
  1_016893_000001_000001_000003_000011_000011_000043_000065_000127_000137_000583_000173_002601_005809_015773_016129_002543_068281_096107,
  1_016922_000001_000003_000005_000009_000025_000025_000095_000073_000313_000893_001805_002301_005917_015159_008637_025505_066053_031627,
  1_016937_000001_000001_000003_000007_000025_000059_000055_000013_000297_000849_000187_000359_003745_012655_029293_058581_089799_195867,
  1_016958_000001_000001_000005_000013_000019_000005_000051_000085_000259_000059_001003_002991_006605_008405_005221_045607_130729_099641,
  1_016965_000001_000003_000005_000005_000025_000061_000051_000211_000143_000233_001465_001165_001769_003021_009491_030335_034787_142605,
  1_016978_000001_000003_000005_000013_000023_000009_000089_000249_000071_000179_000841_003375_000021_006757_027495_007531_123725_253855,
  1_016980_000001_000003_000007_000013_000009_000033_000109_000103_000475_000781_000493_002079_006529_013443_002181_026925_031345_142863,
  1_016989_000001_000001_000007_000009_000015_000041_000017_000085_000503_000839_000533_000731_002735_012949_011395_022539_130147_040045,
  1_017011_000001_000001_000005_000009_000025_000021_000029_000079_000405_000383_001271_000385_007629_003889_005319_057739_051411_050895,
  1_017014_000001_000003_000007_000005_000013_000035_000017_000097_000261_000437_000951_001403_002407_011447_013565_010165_100001_253093,
  1_017023_000001_000003_000001_000003_000011_000039_000031_000187_000473_000565_000351_004007_002621_014463_009009_040679_081069_051131]

def dirRows18_0_10 : List Nat := [
  1_017063_000001_000003_000005_000005_000009_000017_000011_000151_000059_000249_000281_000203_006423_004977_018557_065383_088361_087437,
  1_017081_000001_000003_000005_000007_000015_000025_000003_000157_000179_000439_001627_003493_006641_006403_002361_003613_033817_022585,
  1_017084_000001_000003_000005_000001_000013_000063_000077_000195_000233_000175_000631_001021_000637_013231_026187_000131_127379_256183,
  1_017099_000001_000001_000007_000009_000005_000013_000015_000187_000055_000037_001113_002191_003439_001073_026239_003049_019807_250869,
  1_017126_000001_000001_000007_000003_000013_000015_000077_000047_000317_000285_000753_002419_007795_011423_006043_002913_042819_050603,
  1_017129_000001_000003_000007_000015_000021_000017_000063_000071_000097_000535_001085_001531_005165_013717_001537_026797_111787_189403,
  1_017138_000001_000001_000001_000007_000009_000003_000043_000209_000385_000851_001411_004039_003259_013387_024505_033325_083741_241255,
  1_017164_000001_000001_000001_000001_000003_000041_000013_000043_000303_000445_001097_003517_007753_008459_003017_016385_013775_248655,
  1_017170_000001_000003_000005_000015_000005_000061_000031_000057_000269_000931_001071_001137_006181_013005_018493_001345_105203_117309,
  1_017203_000001_000001_000003_000013_000021_000029_000003_000179_000367_000155_000993_000117_005849_010181_001175_055769_016025_067669,
  1_017206_000001_000001_000003_000009_000011_000009_000033_000131_000181_001003_000253_002759_001877_011851_022959_037823_082737_110329,
  1_017224_000001_000001_000001_000005_000007_000005_000107_000191_000385_000129_000567_002585_007295_003005_028185_007095_054851_257587,
  1_017305_000001_000003_000007_000009_000021_000061_000103_000155_000503_000307_000993_000683_001491_014895_009213_034535_017765_012457,
  1_017322_000001_000003_000003_000001_000007_000047_000027_000173_000097_000889_000853_003995_004943_000071_020479_016741_035479_035307,
  1_017327_000001_000001_000005_000003_000015_000035_000029_000207_000117_000267_001835_002565_001199_003813_013999_010537_129915_210651,
  1_017332_000001_000003_000003_000013_000005_000057_000077_000193_000011_000279_000745_002511_005775_013527_026329_016303_111511_070025,
  1_017342_000001_000003_000007_000009_000017_000001_000073_000001_000125_000939_000863_002763_001951_003191_005567_059729_032149_149417,
  1_017387_000001_000003_000003_000001_000019_000025_000119_000063_000101_000033_000077_003587_006367_008275_024957_032087_007031_217291,
  1_017410_000001_000001_000001_000013_000007_000025_000075_000161_000143_000353_000973_002957_000749_013519_011295_034287_060727_083731,
  1_017419_000001_000003_000007_000007_000017_000009_000059_000045_000097_000619_000895_001955_008143_002507_004673_039425_035679_152069,
  1_017429_000001_000001_000005_000009_000031_000019_000115_000177_000349_000877_000525_000305_002187_012195_013529_061641_102293_069941,
  1_017439_000001_000003_000007_000011_000023_000059_000015_000243_000511_000465_000905_001979_002263_002105_009009_003691_022241_097765,
  1_017440_000001_000001_000007_000009_000029_000013_000003_000207_000051_000405_001703_001923_001781_014723_008103_010707_064799_099349,
  1_017457_000001_000001_000007_000005_000023_000029_000051_000063_000489_000273_001577_002807_005427_009949_001929_019791_109405_241465,
  1_017458_000001_000003_000003_000007_000029_000061_000103_000055_000029_000017_001081_000021_005791_009803_019385_045091_118069_061383,
  1_017469_000001_000003_000001_000007_000003_000015_000075_000047_000475_000087_001541_003933_001081_012361_029213_064333_007229_226909,
  1_017477_000001_000001_000005_000007_000021_000045_000019_000137_000351_000229_001773_001829_005025_012661_018745_054917_010419_176667,
  1_017512_000001_000001_000001_000003_000009_000037_000081_000025_000011_000327_001653_002751_002823_012575_030287_046265_017299_093595,
  1_017518_000001_000001_000001_000003_000015_000017_000043_000163_000223_000731_000631_002813_001723_006089_014245_064339_114291_040331,
  1_017532_000001_000003_000007_000005_000021_000045_000041_000017_000495_000061_001369_000369_004493_012071_003813_041455_062561_174399,
  1_017536_000001_000001_000001_000005_000009_000041_000095_000113_000109_000519_001683_002265_002875_012649_015575_053511_100707_224035,
  1_017559_000001_000003_000007_000009_000029_000007_000109_000109_000283_000111_001167_003679_000369_011597_019459_000759_128667_172427,
  1_017569_000001_000001_000001_000003_000013_000031_000097_000031_000477_000507_000835_000465_007501_002485_019485_051055_056363_229341,
  1_017641_000001_000003_000005_000011_000003_000023_000067_000173_000099_000963_000977_001949_001263_002427_015181_023571_023509_026481,
  1_017667_000001_000003_000003_000001_000029_000003_000035_000191_000197_000277_000397_000205_005945_001069_031789_003551_101901_222609,
  1_017674_000001_000001_000005_000009_000011_000023_000109_000081_000295_000007_000755_002345_002823_011133_022623_014515_057059_231099,
  1_017693_000001_000003_000001_000003_000021_000029_000037_000071_000111_000737_001881_000871_005843_005889_014615_049909_007105_048335,
  1_017710_000001_000003_000001_000015_000023_000031_000087_000181_000483_000225_002003_000365_001569_011153_014673_030085_056497_203723,
  1_017729_000001_000001_000003_000015_000017_000047_000099_000167_000485_000431_001481_002225_001537_008513_019407_034165_027289_084393,
  1_017754_000001_000003_000007_000003_000011_000017_000115_000205_000403_000831_001869_003623_005215_015511_011297_025181_127491_155887,
  1_017763_000001_000001_000007_000005_000031_000037_000023_000021_000403_000529_001185_003363_006319_002435_002687_039407_121891_133047,
  1_017780_000001_000003_000007_000001_000021_000031_000043_000061_000371_000987_001783_003811_006227_013199_031799_028863_049329_073947,
  1_017784_000001_000003_000001_000001_000013_000001_000005_000099_000035_000793_000483_002573_002249_006345_012793_061917_049419_058011,
  1_017790_000001_000003_000001_000015_000003_000045_000035_000189_000067_000447_001455_003575_008191_007907_021559_038211_026945_240679,
  1_017830_000001_000001_000003_000011_000027_000049_000009_000109_000093_000473_001465_000271_007389_000047_008101_006219_017437_220461,
  1_017851_000001_000001_000007_000003_000023_000031_000075_000061_000375_000901_001329_002603_003469_012957_023949_062183_126763_068965,
  1_017868_000001_000001_000007_000009_000013_000059_000075_000233_000339_000029_001117_001693_000593_015317_029753_003079_043583_079939,
  1_017879_000001_000001_000005_000001_000017_000057_000081_000123_000101_000765_001941_003143_007403_009105_023197_028983_128059_005931,
  1_017896_000001_000003_000005_000011_000019_000031_000089_000165_000213_000251_000965_003203_001621_004323_026877_017109_018321_162413,
  1_017901_000001_000003_000003_000009_000011_000059_000123_000213_000335_000267_001767_003317_005189_010149_027921_019331_071541_170501,
  1_017916_000001_000003_000003_000015_000003_000003_000115_000235_000305_000219_000265_001535_004925_005597_020857_032381_117237_197533,
  1_017935_000001_000003_000005_000013_000013_000059_000093_000085_000419_000337_000513_002131_005665_012229_001389_034355_065485_081141,
  1_017953_000001_000003_000007_000007_000011_000059_000111_000219_000293_000289_000325_000623_003853_003775_014771_005945_119451_162861,
  1_017991_000001_000003_000001_000011_000019_000033_000119_000239_000431_000803_001119_002445_003203_007219_031963_034519_104953_254491,
  1_018009_000001_000003_000007_000009_000021_000053_000021_000115_000365_000419_000011_003803_004283_000417_008937_064533_056433_166025,
  1_018016_000001_000001_000007_000003_000017_000005_000099_000143_000485_000309_001255_002641_003427_001681_003301_064531_038629_020945,
  1_018034_000001_000001_000005_000001_000031_000003_000115_000217_000451_000005_001447_002317_001725_012931_025799_023569_051747_028821,
  1_018061_000001_000003_000007_000003_000031_000055_000109_000107_000211_000381_001067_003973_005007_008939_008605_055221_124603_047115,
  1_018070_000001_000001_000001_000011_000019_000013_000099_000241_000103_000711_001823_002671_000653_010217_014195_039735_054807_105599,
  1_018079_000001_000003_000003_000007_000009_000033_000043_000131_000493_000141_000827_002909_002847_012879_007879_006263_025981_057323,
  1_018132_000001_000001_000001_000001_000001_000041_000055_000175_000479_000725_000157_003403_005809_010685_020433_021729_009493_205685,
  1_018145_000001_000001_000007_000005_000001_000033_000031_000245_000109_000711_001047_000941_000449_001055_016249_045211_048311_171339,
  1_018169_000001_000003_000003_000009_000027_000009_000113_000069_000269_000643_001371_003521_004969_005373_011133_063109_042725_126969,
  1_018170_000001_000001_000005_000015_000009_000021_000001_000195_000421_000429_001103_002727_000463_009801_008955_062841_094687_114509,
  1_018190_000001_000001_000005_000005_000005_000047_000009_000221_000059_000115_000359_001147_000749_001009_023129_000641_039471_023073,
  1_018192_000001_000003_000005_000013_000027_000029_000019_000003_000121_000773_000625_002757_006377_015867_014563_040391_004351_021153,
  1_018201_000001_000001_000005_000009_000011_000025_000051_000101_000273_000541_001761_000593_007111_004369_030095_034867_103989_019855,
  1_018228_000001_000001_000003_000013_000027_000055_000079_000115_000105_000855_000627_002227_002927_008757_008713_054607_043671_130153,
  1_018243_000001_000001_000003_000005_000007_000045_000021_000071_000157_000773_001265_000841_002463_002217_006087_028683_021251_072377,
  1_018260_000001_000001_000003_000001_000015_000011_000117_000211_000223_000713_000545_000907_006907_000041_017039_023079_086657_005765,
  1_018279_000001_000001_000005_000003_000027_000033_000077_000137_000401_000585_000911_001189_002749_003427_002701_002453_084857_176585,
  1_018285_000001_000001_000001_000003_000007_000039_000073_000143_000029_000569_000939_000301_007827_007691_011513_064517_113679_234165,
  1_018297_000001_000003_000001_000011_000029_000057_000127_000181_000175_000973_001537_000761_005205_013641_032649_008621_077509_261235,
  1_018300_000001_000003_000005_000005_000013_000019_000117_000225_000477_000297_001807_002357_005653_003791_006325_054877_120659_091013,
  1_018321_000001_000003_000001_000001_000003_000055_000019_000099_000321_000877_000541_000511_000141_015047_026377_000009_002765_223533,
  1_018344_000001_000001_000001_000011_000013_000059_000121_000147_000215_000117_001047_003055_002129_015191_014425_028327_108541_114275,
  1_018358_000001_000001_000001_000015_000003_000021_000105_000061_000501_000899_000195_002745_005989_004433_019525_035477_022997_241657,
  1_018364_000001_000001_000003_000005_000019_000047_000077_000247_000413_000317_001255_002087_004493_002211_009003_022145_094001_050579,
  1_018376_000001_000003_000007_000011_000031_000047_000025_000191_000065_000409_001349_002481_007619_000223_018051_063609_077187_075483,
  1_018390_000001_000001_000001_000009_000021_000059_000115_000251_000401_000091_000627_003273_002393_002949_011475_023669_016171_077507,
  1_018399_000001_000003_000005_000001_000019_000007_000065_000253_000217_000493_000227_003269_004261_002295_032037_005773_012925_041821,
  1_018400_000001_000001_000005_000011_000005_000031_000071_000205_000285_000037_001863_001873_000191_016137_002955_051993_091401_206967,
  1_018427_000001_000003_000001_000007_000023_000031_000021_000081_000037_000903_000817_003447_008067_003087_025831_046247_077255_068365,
  1_018443_000001_000001_000007_000011_000007_000043_000021_000243_000431_000633_002047_000577_007297_008151_015951_030313_121569_241687,
  1_018487_000001_000001_000003_000005_000007_000045_000035_000189_000381_000849_001869_001193_006815_009017_029053_063605_113623_249097,
  1_018493_000001_000003_000003_000011_000013_000001_000073_000151_000197_000591_001101_002437_006695_008337_026539_040147_045673_057727,
  1_018508_000001_000001_000005_000001_000019_000015_000061_000151_000037_000893_001819_002317_006299_013097_005109_032613_123685_128173,
  1_018532_000001_000001_000001_000007_000025_000029_000029_000203_000179_000211_001483_003315_007125_006931_000609_000849_117571_026829,
  1_018535_000001_000003_000003_000011_000011_000047_000033_000101_000181_000431_000183_002777_005269_004177_015727_000717_111243_034825,
  1_018580_000001_000003_000005_000011_000017_000019_000019_000143_000137_000537_001249_002889_001911_003895_015433_060165_083815_205569,
  1_018587_000001_000003_000003_000007_000009_000059_000013_000159_000307_000625_000001_002887_003307_016371_004269_056253_071171_055543,
  1_018606_000001_000001_000001_000011_000007_000063_000015_000053_000409_000007_001317_000473_007481_010321_027941_004941_040003_194153,
  1_018659_000001_000001_000001_000001_000011_000053_000093_000157_000289_000231_000031_000273_008131_007861_031041_055221_058305_203403,
  1_018662_000001_000001_000005_000011_000015_000053_000103_000041_000439_000601_001949_001087_004275_004675_031879_040909_022365_124781,
  1_018679_000001_000003_000005_000009_000001_000047_000081_000047_000197_000499_000329_002387_005455_015571_002289_044121_012105_011883,
  1_018694_000001_000001_000003_000003_000007_000047_000093_000033_000265_000149_000845_000723_007783_006651_022939_058027_066959_003991,
  1_018697_000001_000001_000005_000011_000023_000035_000123_000143_000035_000981_001269_002853_004547_007877_016181_017155_057605_011589,
  1_018706_000001_000001_000007_000011_000009_000057_000087_000151_000333_000743_001939_003273_001047_005033_016061_037237_012013_017669,
  1_018708_000001_000003_000007_000005_000029_000015_000109_000185_000051_000159_001353_003041_007821_014053_013643_062045_078475_043603,
  1_018728_000001_000003_000001_000009_000029_000025_000121_000049_000415_000561_000325_001139_001993_006437_006025_025225_020761_250589]

def dirRows18_0_11 : List Nat := [
  1_018731_000001_000003_000005_000003_000015_000039_000033_000043_000437_000605_001081_002397_003821_010961_004853_019517_095817_142023,
  1_018733_000001_000001_000003_000011_000023_000051_000119_000013_000227_000981_002017_003265_001215_008737_010719_048027_043239_019425,
  1_018751_000001_000003_000001_000015_000005_000005_000033_000175_000509_000611_000451_002653_001553_001941_025221_031259_006027_159847,
  1_018766_000001_000003_000007_000011_000007_000025_000071_000061_000089_000775_000609_002363_004261_010677_001243_044895_049113_209603,
  1_018773_000001_000003_000005_000015_000023_000023_000003_000015_000489_000455_001303_000745_005311_001639_018317_033729_119303_255359,
  1_018796_000001_000003_000007_000005_000013_000053_000029_000127_000159_000067_000469_001735_003497_006985_024735_032957_001225_024447,
  1_018811_000001_000003_000005_000005_000009_000013_000119_000083_000387_000777_000361_003183_006351_009071_013699_053873_054663_067453,
  1_018823_000001_000001_000005_000009_000017_000033_000009_000159_000143_000193_001055_002903_002719_012521_005231_037639_094963_105673,
  1_018832_000001_000003_000003_000001_000027_000053_000087_000049_000465_000517_001333_000411_004089_009985_012989_059511_049939_223481,
  1_018854_000001_000001_000005_000009_000027_000059_000035_000125_000393_000271_001565_002847_008139_015627_016059_055319_011131_035141,
  1_018858_000001_000001_000001_000001_000025_000001_000027_000195_000113_000539_001281_002273_004793_000695_025599_041145_107431_160137,
  1_018883_000001_000003_000003_000007_000013_000007_000035_000137_000083_000995_001671_001701_003157_015583_007637_018947_059675_009421,
  1_018900_000001_000001_000007_000015_000023_000037_000109_000093_000377_000885_001843_001867_002013_010535_005717_055463_018307_125537,
  1_018967_000001_000003_000007_000011_000025_000033_000091_000213_000109_000599_000131_001879_001375_002911_004649_008809_041199_061629,
  1_018974_000001_000003_000001_000001_000011_000017_000117_000243_000427_000913_000495_000527_004277_008867_003131_014143_081677_177369,
  1_018990_000001_000003_000007_000011_000011_000037_000071_000185_000487_000161_001773_000837_000243_014105_006881_002155_063679_220387,
  1_019009_000001_000001_000005_000003_000011_000041_000033_000099_000495_000757_001083_001987_001997_011057_018445_061903_078163_121701,
  1_019055_000001_000001_000001_000001_000023_000037_000009_000019_000411_000011_001487_001279_002129_007449_029631_034559_129753_112627,
  1_019058_000001_000001_000003_000011_000031_000039_000041_000207_000141_000383_000723_003053_000743_004479_012395_056659_130303_152005,
  1_019074_000001_000003_000001_000007_000027_000025_000019_000037_000029_000781_001115_002569_004113_014033_018653_001055_050639_070413,
  1_019079_000001_000001_000003_000001_000009_000015_000109_000007_000221_000161_000569_002915_002717_002439_004257_061851_113183_063139,
  1_019086_000001_000003_000005_000001_000017_000045_000003_000147_000207_000769_000321_000011_002747_007189_008067_034951_050851_042625,
  1_019128_000001_000001_000007_000011_000015_000053_000117_000161_000219_000937_001661_003767_000959_010351_026685_040095_109821_140139,
  1_019145_000001_000003_000003_000009_000015_000047_000061_000035_000289_000743_001723_002189_000749_013499_022897_055385_114953_067191,
  1_019163_000001_000003_000007_000003_000023_000019_000123_000217_000393_000889_001665_000013_005663_008695_029767_013433_065133_226713,
  1_019175_000001_000001_000007_000011_000005_000057_000059_000171_000321_000519_001333_001975_005331_002383_026863_008989_082167_006915,
  1_019189_000001_000001_000003_000003_000007_000017_000105_000079_000007_000827_001277_003805_005943_003161_028953_015657_000615_149131,
  1_019196_000001_000001_000005_000001_000005_000007_000099_000065_000295_000933_000365_001867_001959_010733_026947_029659_121889_200379,
  1_019204_000001_000003_000001_000013_000025_000021_000089_000247_000251_000043_001539_001317_001875_009237_020693_058433_016757_025451,
  1_019213_000001_000003_000003_000013_000011_000047_000073_000021_000467_000337_001881_002723_007023_002767_012553_065533_020517_203749,
  1_019237_000001_000001_000001_000001_000001_000017_000085_000133_000369_000577_000071_000859_008151_000919_010843_044017_010097_199893,
  1_019276_000001_000003_000005_000005_000023_000019_000021_000233_000475_000123_000621_000687_006945_002373_006447_031243_003525_256545,
  1_019287_000001_000001_000007_000005_000009_000005_000035_000021_000033_000353_001429_003249_006159_008757_006213_000855_075863_074507,
  1_019291_000001_000001_000005_000011_000029_000021_000045_000155_000369_000769_001041_003929_007377_001621_005285_055213_066143_110251,
  1_019293_000001_000003_000007_000011_000013_000057_000045_000207_000259_000907_000573_000663_007727_012677_005949_057625_042183_217491,
  1_019304_000001_000003_000005_000003_000021_000063_000113_000159_000087_000551_001405_002867_000239_010941_027633_013947_069689_225771,
  1_019371_000001_000001_000003_000001_000001_000059_000005_000041_000125_000707_001457_000001_004263_005519_026101_046339_044949_063689,
  1_019379_000001_000001_000001_000001_000011_000009_000065_000155_000003_000085_000273_002287_006059_003289_019045_014705_112465_202019,
  1_019381_000001_000003_000003_000003_000021_000049_000095_000075_000479_000519_001511_001609_002421_014435_011749_049627_016221_098351,
  1_019405_000001_000001_000003_000005_000025_000057_000001_000039_000377_000523_000529_000701_006749_010109_015845_053301_070979_210997,
  1_019417_000001_000003_000001_000003_000027_000029_000101_000087_000361_000001_000229_002653_000769_016121_018221_031937_012187_063801,
  1_019420_000001_000003_000003_000001_000025_000027_000049_000235_000309_000023_001625_000589_001251_010305_026943_038949_082539_135491,
  1_019424_000001_000001_000007_000007_000013_000013_000013_000061_000509_000073_000201_002309_001601_003145_019867_005623_117455_180681,
  1_019462_000001_000003_000003_000013_000013_000047_000071_000009_000123_000719_000701_000353_001877_003103_020017_064731_072729_147631,
  1_019474_000001_000003_000001_000007_000029_000029_000053_000097_000409_000067_001033_002403_002471_010869_002837_043459_117415_213371,
  1_019492_000001_000001_000007_000001_000007_000023_000103_000157_000315_000335_000375_003493_004095_005331_007773_064173_023167_021259,
  1_019501_000001_000003_000005_000013_000013_000055_000107_000147_000447_000281_000401_001897_007887_015005_021645_026007_019673_238931,
  1_019504_000001_000003_000001_000007_000017_000039_000109_000113_000143_000059_001095_000225_001455_005021_005011_002039_004381_219847,
  1_019516_000001_000003_000003_000007_000001_000035_000121_000145_000297_000251_001153_001955_007881_015461_026961_000915_030253_015289,
  1_019519_000001_000003_000005_000015_000005_000057_000043_000157_000049_000017_000993_004085_005639_009405_028661_030191_073291_076913,
  1_019534_000001_000001_000007_000001_000025_000063_000117_000055_000063_000649_001635_002505_002765_002715_030241_062699_019567_065953,
  1_019555_000001_000003_000005_000013_000021_000049_000111_000127_000179_000819_001737_002519_000815_010541_015821_054203_071767_007091,
  1_019597_000001_000001_000001_000003_000027_000041_000101_000139_000039_000995_000819_000319_001481_015265_020611_022445_053733_082871,
  1_019600_000001_000003_000003_000013_000007_000061_000103_000203_000353_000205_001927_002665_000757_012277_031217_022247_014527_026385,
  1_019615_000001_000001_000007_000003_000005_000035_000087_000235_000139_000785_000417_003975_006753_004267_015201_008747_012491_159979,
  1_019621_000001_000003_000001_000009_000009_000011_000117_000231_000503_000933_001461_002657_007771_002161_026723_004853_023215_162315,
  1_019646_000001_000001_000007_000015_000027_000025_000115_000009_000257_000089_000571_000041_002169_010619_002695_002107_064747_040489,
  1_019651_000001_000003_000007_000009_000029_000061_000091_000117_000279_000721_000233_000177_005509_007599_002379_020297_075425_025051,
  1_019693_000001_000001_000001_000015_000031_000041_000003_000057_000059_000047_000963_002831_001885_001989_026803_048243_112065_027753,
  1_019702_000001_000001_000005_000015_000009_000057_000041_000255_000179_000719_001463_002857_000285_009623_013111_020415_028819_149441,
  1_019726_000001_000003_000001_000009_000017_000063_000021_000079_000473_000525_001557_003205_007097_014379_028039_030731_062383_247429,
  1_019754_000001_000003_000003_000013_000025_000045_000097_000213_000011_000801_001519_001085_006167_013701_006707_047223_069923_066239,
  1_019759_000001_000001_000001_000013_000001_000001_000009_000021_000363_000729_001715_001249_005299_011357_020627_033559_084255_133743,
  1_019764_000001_000003_000003_000013_000017_000033_000023_000255_000309_000605_001177_001305_002717_006561_029193_007971_117525_079139,
  1_019788_000001_000003_000001_000001_000007_000015_000073_000171_000011_000791_000241_002641_005397_010403_022207_064123_124507_063855,
  1_019793_000001_000003_000001_000011_000011_000007_000109_000103_000321_001009_001237_003347_000287_002389_016529_007789_003347_097827,
  1_019836_000001_000003_000003_000003_000001_000027_000017_000009_000223_000755_000559_003811_002997_001543_023197_042371_005837_013809,
  1_019855_000001_000003_000001_000003_000007_000057_000031_000023_000035_000329_001155_002525_003029_005495_012005_018045_004539_075789,
  1_019858_000001_000001_000005_000013_000003_000031_000121_000161_000325_000869_000715_000851_001273_001871_022711_061499_036291_011663,
  1_019880_000001_000001_000005_000011_000007_000039_000023_000139_000197_000047_000513_000373_006859_011217_017725_060949_019299_091425,
  1_019883_000001_000001_000003_000007_000015_000063_000123_000011_000109_000829_000231_002591_007997_009061_018647_003209_038509_211219,
  1_019917_000001_000001_000001_000011_000013_000035_000073_000223_000325_000049_001317_004063_004127_002755_000555_051057_044909_205723,
  1_019918_000001_000003_000003_000013_000017_000041_000115_000141_000503_000525_000063_002487_003225_000959_010623_028577_089127_157269,
  1_019936_000001_000003_000001_000009_000025_000009_000043_000043_000279_000111_001141_003033_007229_005725_008277_059141_116811_127945,
  1_019946_000001_000003_000007_000011_000027_000027_000093_000243_000135_000333_001475_001259_001583_007191_006831_053485_128819_174211,
  1_019954_000001_000003_000003_000003_000017_000017_000043_000251_000433_001011_001817_002835_007721_002449_009463_023779_031427_088127,
  1_019979_000001_000001_000003_000003_000011_000049_000061_000041_000211_000559_001761_001303_002119_005743_025515_060705_054405_241063,
  1_019993_000001_000001_000003_000011_000007_000061_000015_000115_000029_000035_000187_003137_006177_001449_032723_015917_107851_101077,
  1_019994_000001_000003_000005_000013_000021_000007_000011_000231_000417_000073_001175_000735_000627_007393_007233_039883_129481_106733,
  1_020006_000001_000003_000001_000015_000027_000061_000063_000201_000027_000431_001127_001555_001953_013051_018701_030097_095549_198465,
  1_020017_000001_000001_000003_000001_000023_000025_000043_000085_000291_000085_001861_000675_007451_014701_003929_010835_025569_154687,
  1_020032_000001_000003_000007_000015_000005_000043_000091_000225_000283_000259_001311_003977_000585_014803_014117_002121_106981_157577,
  1_020038_000001_000001_000001_000011_000007_000051_000049_000115_000477_000861_001115_000743_005109_000959_007105_009245_066297_188751,
  1_020050_000001_000003_000003_000011_000023_000001_000011_000111_000163_000643_001907_003613_002967_010071_006023_001307_062341_241025,
  1_020080_000001_000003_000005_000005_000015_000029_000031_000043_000445_000219_001261_000421_006035_006461_025583_000817_100509_239637,
  1_020135_000001_000001_000007_000003_000027_000051_000121_000093_000349_000125_002013_001671_008049_007807_007291_064413_093625_245611,
  1_020142_000001_000003_000003_000009_000011_000001_000091_000137_000501_000617_001513_000799_001705_015737_014989_053611_048781_064481,
  1_020159_000001_000003_000003_000001_000021_000055_000095_000079_000383_000617_001589_002671_004057_013525_009269_023539_013317_087701,
  1_020173_000001_000001_000003_000001_000029_000017_000121_000045_000091_000215_000325_002853_001213_010221_007233_034063_021887_142943,
  1_020186_000001_000003_000003_000011_000027_000053_000055_000149_000107_000379_000441_000585_005697_016353_005613_004323_055315_197603,
  1_020229_000001_000003_000007_000003_000031_000009_000071_000175_000485_000035_000675_002091_002351_007985_014207_052687_008559_001067,
  1_020234_000001_000001_000005_000015_000029_000037_000009_000073_000357_000961_000489_000875_007465_003231_027821_042499_127837_117215,
  1_020263_000001_000003_000007_000007_000019_000043_000075_000153_000027_000291_002039_002661_005513_013429_027307_005305_044771_200621,
  1_020270_000001_000001_000001_000015_000005_000039_000061_000107_000201_000485_000319_000335_005537_014195_031861_063637_068497_045637,
  1_020299_000001_000003_000007_000007_000023_000049_000095_000225_000025_000933_000667_002993_002181_015659_031343_020249_057039_043399,
  1_020304_000001_000003_000003_000007_000017_000025_000029_000243_000511_000091_001409_000203_002749_007067_012471_041737_032761_007535,
  1_020319_000001_000001_000007_000009_000027_000043_000063_000065_000325_000817_001127_002039_006171_005867_010593_017205_095913_207417,
  1_020329_000001_000001_000007_000003_000003_000051_000107_000153_000193_000579_000593_002915_007641_005157_001131_029793_066579_081903,
  1_020337_000001_000001_000005_000015_000019_000061_000125_000107_000235_000513_001897_000875_006341_001817_010631_063905_042993_150699,
  1_020353_000001_000001_000003_000011_000027_000001_000093_000107_000325_000459_001733_002527_004557_002277_019345_008205_067337_242559]

def dirRows18_0_12 : List Nat := [
  1_020401_000001_000001_000007_000003_000003_000045_000027_000227_000201_000099_000589_001665_004851_002655_009915_041321_059865_071501,
  1_020434_000001_000003_000001_000009_000003_000025_000117_000199_000125_000849_000135_001771_004743_013475_023711_017389_052711_200143,
  1_020436_000001_000003_000001_000003_000011_000023_000067_000155_000133_000557_001933_003169_001707_016045_011039_013889_071045_245885,
  1_020473_000001_000001_000005_000009_000001_000007_000099_000013_000315_000251_001289_000225_002847_008451_003139_046829_124745_064825,
  1_020488_000001_000003_000007_000013_000019_000045_000087_000161_000271_000401_001995_000935_001803_004051_011709_026993_120139_147895,
  1_020512_000001_000001_000007_000005_000015_000011_000047_000215_000051_001019_002039_003767_000929_003845_003939_064077_048115_061845,
  1_020515_000001_000001_000001_000005_000001_000039_000015_000077_000179_000013_001099_000203_003363_009071_012033_049159_071137_124177,
  1_020517_000001_000003_000005_000005_000001_000031_000083_000219_000387_000347_001099_000925_004423_005081_015981_035881_079131_248301,
  1_020530_000001_000003_000007_000003_000025_000019_000053_000043_000347_000845_001735_003237_002795_002253_002997_043729_122833_124869,
  1_020571_000001_000003_000005_000011_000005_000019_000093_000055_000297_000231_000239_003335_000253_013607_016769_048879_061439_054827,
  1_020574_000001_000003_000007_000011_000011_000055_000121_000073_000019_001017_000727_000579_008011_009559_015051_007895_017609_103061,
  1_020589_000001_000001_000007_000005_000019_000047_000085_000195_000075_001003_000439_003069_002107_012751_026729_002329_001191_086547,
  1_020592_000001_000003_000003_000009_000005_000031_000063_000227_000481_000793_001853_001491_002109_004199_032149_045229_054685_124819,
  1_020611_000001_000001_000001_000003_000015_000015_000041_000045_000153_000429_001691_001897_007253_007239_026133_036527_090319_186097,
  1_020613_000001_000003_000001_000013_000015_000033_000103_000113_000121_000387_000177_001943_003181_005483_018515_038807_022655_059787,
  1_020628_000001_000001_000005_000007_000015_000003_000053_000155_000099_000133_000579_002129_006881_011091_026715_015485_108071_230881,
  1_020637_000001_000001_000003_000013_000025_000061_000091_000081_000009_001011_001993_002485_003707_011127_021279_015853_104081_203769,
  1_020638_000001_000001_000007_000003_000017_000023_000037_000171_000315_000247_000275_003215_007139_011739_025859_034803_124601_009169,
  1_020719_000001_000003_000007_000009_000021_000029_000097_000213_000309_000865_000597_001811_005547_003741_031927_053379_043293_023589,
  1_020724_000001_000003_000007_000009_000007_000043_000107_000187_000485_000977_001329_003037_003701_009667_013581_006283_039221_063841,
  1_020772_000001_000001_000003_000011_000003_000051_000117_000045_000293_000409_000689_000153_001163_010921_022709_030415_120475_120751,
  1_020796_000001_000003_000005_000015_000031_000059_000057_000063_000249_000763_001627_003039_004309_014115_025489_035009_126609_146041,
  1_020799_000001_000001_000001_000009_000003_000047_000021_000183_000495_000361_001439_000407_005757_012645_011425_001923_094511_205127,
  1_020816_000001_000003_000001_000009_000015_000005_000101_000107_000385_000175_000791_000901_004427_010415_008163_014417_062997_139309,
  1_020841_000001_000003_000005_000003_000013_000057_000009_000099_000077_000123_001607_003643_003879_000503_006021_060211_106471_221801,
  1_020844_000001_000001_000007_000005_000027_000035_000011_000033_000415_000387_001461_000741_000055_015095_021177_005715_109893_204843,
  1_020862_000001_000001_000001_000015_000007_000049_000051_000081_000157_000421_000279_001951_006847_010259_031925_060761_012395_049511,
  1_020865_000001_000003_000007_000011_000005_000033_000027_000135_000247_000813_001889_002547_002359_009535_004141_059713_088685_214641,
  1_020902_000001_000001_000005_000015_000017_000061_000099_000103_000039_000151_001033_002743_006639_005271_022059_012681_022763_088255,
  1_020938_000001_000001_000007_000013_000005_000011_000039_000139_000353_000989_001391_000169_003709_000735_022965_000227_103623_153893,
  1_020957_000001_000001_000007_000003_000009_000051_000053_000087_000411_000617_000671_000681_005057_006003_023137_030881_002289_187133,
  1_020971_000001_000001_000007_000007_000017_000059_000077_000219_000025_000053_000145_000129_004289_014257_007159_044833_022131_053393,
  1_020973_000001_000003_000007_000001_000009_000059_000079_000177_000149_000637_001641_003713_002709_012321_005691_018239_008617_225979,
  1_020981_000001_000001_000007_000005_000009_000009_000067_000051_000451_000815_000295_000813_001257_000179_028769_057241_051753_164873,
  1_020982_000001_000003_000001_000009_000019_000061_000053_000065_000029_000503_000715_001837_007487_016187_027303_054681_098753_100471,
  1_020985_000001_000001_000003_000001_000015_000051_000001_000079_000179_000367_000841_001313_000797_004777_001369_013317_065059_204877,
  1_020991_000001_000003_000005_000009_000015_000019_000109_000045_000473_000517_001139_000015_001997_004245_011169_056417_075017_037957,
  1_021012_000001_000001_000007_000001_000003_000041_000075_000095_000059_000503_001439_002633_003527_005363_024357_043659_010387_208319,
  1_021022_000001_000001_000005_000001_000031_000007_000071_000231_000505_000241_001579_003517_003995_008269_006793_015883_102779_075589,
  1_021026_000001_000003_000005_000001_000013_000061_000087_000213_000501_000307_001629_002715_007245_000747_020601_028105_079249_076231,
  1_021028_000001_000001_000007_000011_000005_000013_000069_000221_000485_000059_002027_000483_006851_011719_016787_054111_047579_049959,
  1_021050_000001_000001_000003_000015_000003_000033_000057_000075_000375_000045_000851_001673_008167_000867_032087_034157_096701_072893,
  1_021075_000001_000001_000003_000001_000021_000031_000065_000085_000181_000453_000815_003139_000205_000429_007451_050855_041085_137927,
  1_021077_000001_000003_000001_000009_000003_000057_000099_000183_000305_000991_000809_004021_003131_004459_005839_032493_116541_059329,
  1_021078_000001_000003_000007_000001_000005_000019_000003_000091_000297_000715_001081_000445_000393_012685_004457_061437_103701_075917,
  1_021106_000001_000001_000007_000015_000017_000039_000019_000255_000247_000391_001055_001241_004515_010217_023363_040301_115053_234349,
  1_021122_000001_000003_000005_000001_000021_000009_000033_000243_000501_000793_000219_003595_002585_005083_015377_035761_090609_093761,
  1_021127_000001_000001_000005_000013_000003_000001_000005_000077_000265_000525_001107_001879_001119_002277_030557_043547_081947_134075,
  1_021155_000001_000001_000007_000005_000011_000047_000071_000083_000255_000183_000515_002591_003933_016025_016727_043421_018725_106675,
  1_021167_000001_000003_000001_000001_000005_000017_000057_000209_000509_000421_001247_003153_001835_008777_013285_027699_034001_186553,
  1_021169_000001_000001_000003_000011_000027_000019_000073_000065_000179_000115_000845_002507_007673_014429_010553_004999_082323_247379,
  1_021204_000001_000003_000007_000007_000017_000059_000097_000183_000407_000697_001423_000123_006479_003997_000729_031587_114383_061673,
  1_021230_000001_000001_000005_000009_000021_000023_000021_000153_000187_000255_000125_001469_002639_008099_029689_036415_103959_231621,
  1_021256_000001_000001_000003_000011_000019_000059_000115_000205_000123_000133_001953_003471_002495_000329_032385_021931_009691_051405,
  1_021285_000001_000003_000003_000013_000007_000007_000115_000065_000301_000621_001091_002137_005729_005027_021331_024803_114789_142039,
  1_021312_000001_000001_000007_000005_000031_000019_000103_000069_000503_000663_001497_002867_005295_000893_015927_037513_094553_072369,
  1_021329_000001_000003_000003_000015_000017_000033_000099_000249_000277_000259_000009_000099_003073_012017_014847_007685_102499_026489,
  1_021351_000001_000001_000001_000001_000005_000023_000031_000045_000029_000483_001977_001129_006925_002273_016573_053039_090251_137191,
  1_021372_000001_000003_000001_000013_000027_000047_000029_000051_000473_000895_000671_003917_006905_015769_009019_028879_120591_220753,
  1_021376_000001_000003_000001_000013_000027_000029_000053_000255_000507_000819_001251_002463_001717_014461_031997_030829_008803_115539,
  1_021424_000001_000003_000003_000015_000027_000001_000109_000225_000451_000409_002025_002701_004121_009949_001551_013625_073577_211549,
  1_021448_000001_000001_000001_000003_000023_000057_000049_000035_000365_000711_002001_000997_001853_002913_015667_030255_019535_002171,
  1_021465_000001_000001_000007_000001_000021_000037_000127_000003_000117_000449_001689_001391_001427_012641_015199_023769_066553_034669,
  1_021495_000001_000003_000007_000009_000031_000045_000051_000137_000181_000469_000573_000089_007257_010991_030705_037827_075071_152885,
  1_021509_000001_000003_000001_000001_000019_000013_000055_000223_000261_000353_001497_000183_008173_014421_009977_024095_047215_155189,
  1_021550_000001_000001_000003_000015_000015_000041_000031_000105_000459_000027_000299_000159_002167_014809_009983_002755_121715_035921,
  1_021562_000001_000001_000003_000007_000031_000005_000085_000137_000431_000849_001479_002681_000167_005727_003211_030765_063295_039509,
  1_021575_000001_000001_000005_000007_000005_000051_000021_000103_000175_000927_001115_001507_000505_008093_025831_054303_040397_061249,
  1_021579_000001_000001_000007_000003_000023_000053_000049_000225_000007_000425_000403_003949_001081_015335_021737_000647_107875_236183,
  1_021582_000001_000001_000005_000007_000017_000021_000085_000229_000325_000057_000601_002785_006417_005135_017917_012861_097675_115457,
  1_021600_000001_000001_000003_000003_000013_000023_000073_000111_000385_000047_000605_001169_001729_002335_018739_061293_041915_237645,
  1_021615_000001_000001_000001_000005_000031_000011_000123_000013_000465_000755_001073_001885_002105_005971_002347_010911_125823_156037,
  1_021617_000001_000003_000007_000011_000017_000047_000003_000165_000227_000355_000087_000839_007741_012275_028579_025337_087671_224847,
  1_021624_000001_000001_000005_000015_000023_000033_000009_000001_000257_000121_001049_001009_000187_009935_026093_021921_130247_240291,
  1_021633_000001_000001_000003_000013_000013_000027_000087_000221_000027_000117_000551_002533_007611_005333_014635_009911_037555_250621,
  1_021636_000001_000003_000007_000015_000029_000039_000033_000001_000495_000889_001397_003415_007193_011533_027379_036425_013739_146635,
  1_021645_000001_000001_000007_000011_000001_000023_000085_000127_000079_000989_000321_001913_007571_009889_011803_001307_120513_218077,
  1_021654_000001_000001_000007_000005_000005_000015_000035_000009_000351_000973_001455_002043_005527_009431_016059_053915_105785_180579,
  1_021660_000001_000001_000001_000013_000013_000045_000015_000041_000131_000463_001011_003559_006393_004737_006041_033073_060989_056761,
  1_021667_000001_000001_000003_000009_000031_000035_000023_000133_000033_000233_000543_000957_004913_012441_010293_031611_083383_154551,
  1_021702_000001_000003_000003_000001_000029_000037_000117_000247_000345_000197_001617_003333_007901_008343_000055_016529_034627_172703,
  1_021714_000001_000001_000001_000013_000023_000051_000007_000219_000503_000215_000375_002275_005467_013953_013987_022735_067505_185977,
  1_021719_000001_000003_000005_000005_000029_000053_000085_000147_000167_000409_000853_000667_004431_005227_015535_034375_107135_220637,
  1_021736_000001_000003_000007_000007_000019_000003_000073_000123_000455_000539_001735_001423_005337_016311_015469_036071_126437_219249,
  1_021767_000001_000001_000001_000003_000019_000049_000017_000133_000101_001013_000683_000869_006267_000409_031379_002535_008039_063205,
  1_021781_000001_000001_000001_000013_000013_000053_000025_000031_000501_000629_000645_001811_003675_013317_017009_007359_085475_249823,
  1_021795_000001_000001_000003_000011_000005_000001_000041_000017_000159_000361_001439_002083_001425_007221_009117_059543_059285_188615,
  1_021841_000001_000003_000007_000001_000011_000027_000071_000121_000471_000749_001983_003715_006463_005793_001063_018201_000189_243751,
  1_021853_000001_000003_000003_000011_000019_000017_000015_000175_000379_000683_001491_002385_006981_001183_016829_002103_009309_046119,
  1_021867_000001_000001_000007_000005_000017_000039_000109_000009_000279_000309_000001_001523_004551_003855_013277_036125_054191_045085,
  1_021878_000001_000003_000005_000003_000009_000059_000051_000005_000431_000657_000161_002725_002401_009743_012925_043501_051551_163737,
  1_021891_000001_000001_000005_000003_000009_000013_000007_000177_000121_000795_001169_003169_003793_003995_029027_032967_082273_207939,
  1_021897_000001_000003_000007_000013_000001_000001_000031_000091_000245_000775_001589_002263_006303_015787_003111_052553_052507_183971,
  1_021954_000001_000003_000005_000011_000015_000049_000073_000191_000067_000449_001245_002445_005617_008625_027971_035939_076907_076207,
  1_021956_000001_000003_000001_000011_000015_000047_000029_000091_000437_000895_001941_000249_002739_015479_029699_007257_039897_065985,
  1_021965_000001_000003_000005_000007_000013_000023_000045_000113_000297_000373_001505_002317_007509_012059_013737_029081_087337_221917,
  1_021977_000001_000003_000003_000003_000001_000005_000013_000215_000221_000461_001337_003569_002257_012135_014685_039721_016723_234791,
  1_021978_000001_000001_000007_000005_000011_000025_000071_000103_000087_000533_000779_000379_006695_013451_024801_049235_035109_100865,
  1_021983_000001_000003_000003_000015_000013_000051_000027_000011_000279_000847_000135_001119_002765_003805_020273_029089_083379_190353,
  1_022002_000001_000003_000007_000005_000017_000029_000111_000035_000189_000273_000503_000541_006691_009051_010403_007559_054787_025403]

def dirRows18_0_13 : List Nat := [
  1_022013_000001_000003_000005_000009_000021_000029_000085_000235_000223_000677_000071_001313_006587_010983_000199_027721_078627_105505,
  1_022014_000001_000003_000001_000003_000013_000003_000123_000115_000173_000907_001555_001489_002745_006451_025347_024105_066471_181009,
  1_022054_000001_000001_000007_000001_000031_000015_000013_000097_000511_000827_001193_003081_001517_013511_024887_039239_085175_150213,
  1_022058_000001_000001_000001_000005_000017_000039_000121_000067_000207_000877_001885_000171_002687_013081_027267_058699_118575_213025,
  1_022066_000001_000001_000003_000009_000009_000027_000101_000215_000031_000037_001629_003631_003225_009667_031547_041939_038683_150805,
  1_022085_000001_000003_000001_000011_000011_000059_000017_000015_000187_000667_000747_002193_006749_006019_031805_052433_004141_052613,
  1_022103_000001_000003_000003_000013_000009_000001_000051_000101_000213_000881_000899_002197_003017_001591_009271_044017_099893_192005,
  1_022138_000001_000003_000007_000013_000023_000041_000079_000083_000123_000585_000049_000849_002133_012473_006907_015487_045783_046609,
  1_022140_000001_000003_000007_000013_000027_000023_000071_000013_000319_000903_001123_000933_002603_011631_019953_047001_127751_084547,
  1_022153_000001_000001_000001_000015_000003_000061_000079_000231_000043_000217_000801_000997_006545_013657_025589_030435_049497_001037,
  1_022164_000001_000003_000003_000003_000021_000029_000121_000035_000129_000239_001645_003147_007647_001201_019287_007075_067961_062481,
  1_022167_000001_000003_000007_000007_000003_000023_000045_000177_000469_000897_000359_002521_002079_000985_014993_056813_020667_187341,
  1_022189_000001_000003_000005_000007_000023_000053_000015_000045_000297_000093_000247_001165_002683_005899_007113_014859_022733_173835,
  1_022202_000001_000001_000003_000015_000023_000017_000043_000179_000103_000197_001857_000323_000267_012417_002343_041527_012243_112023,
  1_022212_000001_000003_000007_000013_000007_000043_000075_000019_000169_000621_000735_000141_003087_000765_005901_034029_117603_005137,
  1_022234_000001_000001_000003_000005_000015_000017_000067_000177_000371_000249_000099_001651_003701_000343_000435_050307_033915_115391,
  1_022239_000001_000001_000003_000013_000019_000053_000069_000001_000435_000071_000339_002289_001591_008783_008087_025855_115311_191115,
  1_022245_000001_000003_000005_000011_000001_000055_000059_000007_000101_000655_000353_000483_005681_012721_015973_051377_094921_246365,
  1_022272_000001_000003_000005_000003_000025_000023_000099_000145_000277_000741_000595_002653_001393_002867_000271_049131_111973_118869,
  1_022308_000001_000001_000007_000013_000011_000051_000127_000027_000305_000265_001755_003189_004679_009721_024409_046941_094353_095643,
  1_022318_000001_000001_000005_000011_000001_000063_000053_000149_000459_000155_001431_003969_003417_012121_014535_052089_110745_000057,
  1_022320_000001_000001_000005_000009_000023_000033_000017_000175_000313_000185_000101_000531_002941_014999_031413_012103_033709_260555,
  1_022338_000001_000001_000003_000013_000003_000011_000067_000095_000211_000673_000023_002379_006985_012101_013021_009255_116437_228877,
  1_022350_000001_000001_000003_000015_000007_000051_000025_000109_000045_000691_000869_000485_000111_011465_027953_054375_010805_221023,
  1_022374_000001_000003_000007_000007_000017_000053_000059_000101_000221_000593_000587_000873_000931_014617_012067_058655_102437_031675,
  1_022388_000001_000001_000003_000015_000025_000057_000035_000231_000491_000671_000933_003525_001237_010155_027501_050781_023183_108283,
  1_022391_000001_000003_000005_000005_000031_000063_000117_000205_000199_000841_001455_003901_002127_013573_020667_049489_060217_197421,
  1_022422_000001_000001_000003_000007_000015_000021_000073_000211_000421_000873_000607_000709_000009_010985_028653_064579_118145_003095,
  1_022426_000001_000001_000001_000013_000017_000053_000027_000105_000201_000399_000737_003235_001287_013859_006049_062249_088259_052991,
  1_022441_000001_000003_000007_000007_000025_000045_000067_000147_000275_000315_001675_002289_004611_006325_026617_038079_125219_023569,
  1_022481_000001_000001_000007_000007_000009_000061_000115_000251_000297_000691_001881_001815_007229_010859_008257_038097_087927_162845,
  1_022488_000001_000003_000003_000009_000009_000059_000017_000207_000433_000825_000093_000697_007263_015983_014829_047471_017579_151519,
  1_022500_000001_000001_000001_000011_000021_000031_000007_000041_000383_000731_002033_003417_004187_005515_010093_015875_078551_002057,
  1_022517_000001_000003_000007_000015_000005_000029_000007_000171_000129_000727_001815_001361_006137_010333_022203_000361_092437_006545,
  1_022531_000001_000001_000003_000013_000025_000045_000111_000069_000333_000365_000765_002755_003485_002729_023467_064809_120755_169279,
  1_022552_000001_000001_000003_000001_000019_000013_000033_000165_000157_000429_001175_003435_007523_005055_012295_034309_036933_164037,
  1_022574_000001_000001_000003_000011_000031_000049_000037_000161_000465_000311_001839_000689_006837_013473_029883_061587_086077_156921,
  1_022579_000001_000003_000003_000001_000003_000023_000069_000159_000501_000303_001495_000009_006055_000545_012247_023413_067247_038137,
  1_022582_000001_000001_000005_000015_000005_000039_000107_000121_000295_000167_001055_002703_000147_007291_003981_051989_092953_225987,
  1_022586_000001_000003_000001_000001_000021_000005_000091_000129_000057_000053_000365_002497_005017_013535_019305_060447_115467_225317,
  1_022594_000001_000003_000001_000007_000025_000017_000051_000015_000119_001013_000719_000991_002655_012587_015749_011723_018461_155937,
  1_022611_000001_000003_000007_000003_000025_000033_000059_000135_000501_000813_000235_003775_002781_013137_032673_031643_078881_207651,
  1_022614_000001_000001_000007_000013_000027_000051_000099_000189_000187_000577_000941_001275_007297_014731_012599_049049_096439_035093,
  1_022700_000001_000003_000001_000015_000009_000045_000001_000149_000305_000231_000935_001377_006345_014795_020969_026263_005711_146949,
  1_022711_000001_000001_000005_000009_000005_000009_000047_000127_000105_000517_000671_000067_004639_002477_023109_056707_072131_100709,
  1_022749_000001_000003_000005_000003_000021_000023_000007_000193_000491_000197_000319_003207_002183_002133_003127_034555_053707_170875,
  1_022759_000001_000001_000003_000009_000005_000023_000109_000091_000359_000913_000179_001031_003617_012497_023299_053293_114603_009931,
  1_022774_000001_000003_000001_000005_000001_000047_000073_000103_000333_000483_001015_003085_005229_003171_016539_013493_068957_177645,
  1_022777_000001_000001_000001_000009_000027_000015_000025_000255_000383_000501_000831_002463_000237_016065_006991_056503_117303_140573,
  1_022780_000001_000001_000003_000005_000009_000025_000015_000179_000415_000729_001163_002649_002907_009591_029129_042775_080537_139897,
  1_022783_000001_000001_000003_000007_000031_000015_000113_000001_000263_000685_001953_001479_005143_008585_009057_061479_122065_191541,
  1_022785_000001_000003_000001_000011_000025_000047_000025_000229_000463_000197_001123_002665_002345_011701_010435_015205_035437_137619,
  1_022840_000001_000003_000003_000005_000019_000057_000089_000101_000373_000283_000057_001701_005025_006677_020321_058459_009319_161501,
  1_022878_000001_000001_000001_000013_000003_000051_000111_000023_000325_000813_000441_002371_001993_006839_000359_009873_033719_208163,
  1_022884_000001_000003_000001_000011_000023_000053_000035_000089_000091_000601_000433_001671_001919_002115_006355_010639_087305_194185,
  1_022888_000001_000001_000005_000009_000029_000031_000043_000153_000209_000835_000865_002431_001085_009771_014483_019551_098673_146881,
  1_022927_000001_000001_000007_000003_000007_000033_000049_000111_000111_000843_000479_002113_004575_014911_005161_007153_037525_217887,
  1_022941_000001_000001_000007_000009_000027_000005_000023_000217_000011_000079_001637_002047_006697_005601_002877_063497_100127_157833,
  1_022951_000001_000001_000007_000011_000031_000041_000091_000039_000207_000185_001163_002115_002963_007605_012597_054175_007221_117129,
  1_022958_000001_000003_000007_000013_000009_000015_000003_000047_000281_000451_001111_003585_004505_009465_008047_045893_027179_124373,
  1_022980_000001_000003_000005_000011_000027_000029_000011_000221_000483_000029_000017_001067_006761_000039_013419_007263_127547_178951,
  1_023007_000001_000003_000005_000005_000019_000003_000051_000155_000041_000251_000851_001191_004445_008337_025339_032931_004743_031883,
  1_023032_000001_000003_000007_000015_000009_000003_000113_000151_000239_000611_000381_001141_002865_003071_007293_061997_002891_014533,
  1_023041_000001_000003_000005_000003_000015_000059_000003_000037_000385_000587_000837_002483_005493_010571_026129_044835_063425_246953,
  1_023044_000001_000003_000005_000013_000009_000009_000093_000011_000139_000619_000581_002859_005481_011941_020661_037463_095369_177009,
  1_023059_000001_000001_000007_000011_000007_000017_000089_000007_000479_000377_001631_000509_007429_013733_024011_024191_098409_180761,
  1_023065_000001_000003_000007_000001_000005_000017_000051_000113_000181_000075_001787_002221_006181_016069_003031_032531_107833_239907,
  1_023072_000001_000001_000005_000011_000003_000025_000013_000035_000311_000865_000873_001811_003101_004445_018155_018647_055693_144963,
  1_023137_000001_000003_000007_000013_000001_000009_000073_000189_000255_000301_001579_000597_006027_015621_027287_014615_076051_143445,
  1_023144_000001_000003_000001_000013_000019_000059_000011_000097_000501_000857_001071_003633_008059_002469_016803_049395_073631_114297,
  1_023155_000001_000001_000001_000005_000019_000003_000059_000179_000343_000745_000497_002965_003841_003119_017707_031577_039801_108819,
  1_023162_000001_000003_000003_000009_000011_000017_000019_000199_000283_000229_000493_000631_008133_001531_025271_011353_114759_070655,
  1_023167_000001_000001_000007_000007_000003_000011_000001_000095_000167_000863_001009_001695_002773_011667_023515_012927_087883_028773,
  1_023183_000001_000003_000001_000015_000009_000001_000031_000243_000057_000349_000483_000659_001971_007971_023797_004403_083837_239261,
  1_023192_000001_000003_000007_000005_000011_000017_000055_000005_000209_000233_001969_000925_000695_001321_011965_029849_120519_195105,
  1_023197_000001_000003_000007_000011_000009_000045_000027_000009_000057_000649_001801_002653_001535_000045_008901_028755_026475_112341,
  1_023216_000001_000001_000003_000013_000011_000057_000103_000213_000193_000779_000541_003685_004191_006105_007199_063659_049673_208361,
  1_023221_000001_000003_000003_000007_000015_000015_000009_000207_000387_000429_001213_001703_005753_010261_008705_062783_009643_248591,
  1_023228_000001_000003_000003_000015_000023_000017_000005_000083_000295_000685_002003_001723_002799_014699_025171_020275_045597_214107,
  1_023233_000001_000001_000001_000015_000013_000033_000111_000069_000329_000273_001303_003377_004151_012547_020411_054845_007839_173939,
  1_023234_000001_000001_000005_000015_000025_000031_000011_000075_000069_000501_001485_003659_003889_009715_009633_045313_112377_027799,
  1_023251_000001_000001_000003_000011_000031_000027_000007_000025_000315_000593_000315_000275_001453_009429_010023_017939_037651_217435,
  1_023257_000001_000003_000007_000007_000027_000041_000069_000095_000019_000763_001733_002097_006723_007051_015209_053047_056117_087639,
  1_023258_000001_000003_000007_000005_000015_000061_000031_000019_000361_000571_000727_000405_000835_004847_026777_050311_104125_127197,
  1_023288_000001_000001_000001_000011_000011_000061_000059_000063_000409_000219_001135_003385_005583_016143_022709_031247_019871_068557,
  1_023302_000001_000003_000007_000001_000011_000003_000121_000041_000135_000427_001267_002169_000507_000757_012411_050655_075625_001199,
  1_023341_000001_000001_000007_000005_000017_000021_000089_000119_000055_000395_000979_000909_001711_003289_008433_000009_012743_109027,
  1_023373_000001_000001_000001_000013_000005_000011_000093_000035_000437_000173_001157_002749_006855_008307_026145_022593_125415_065509,
  1_023402_000001_000001_000005_000003_000025_000027_000001_000173_000113_000373_001769_002941_001895_003399_027665_050613_020747_031903,
  1_023409_000001_000001_000001_000001_000009_000007_000053_000073_000465_000725_001537_000579_000083_000925_015507_013595_016927_205087,
  1_023428_000001_000001_000003_000007_000007_000023_000031_000127_000027_000727_001305_003879_000817_015995_028607_022695_006367_161587,
  1_023435_000001_000003_000001_000007_000029_000023_000027_000117_000279_000917_001105_002061_007719_013633_016501_033739_071939_143115,
  1_023440_000001_000003_000007_000011_000007_000027_000065_000133_000411_000441_000925_001485_002035_003067_014511_058511_120773_228731,
  1_023449_000001_000001_000003_000009_000021_000055_000027_000073_000175_000395_001201_002599_003839_011163_005057_003385_043265_105211,
  1_023459_000001_000001_000001_000003_000007_000063_000091_000197_000417_000763_001391_003729_002791_001975_023655_050611_110315_086879,
  1_023473_000001_000003_000003_000005_000031_000035_000067_000067_000089_000933_001005_001837_005947_002559_027731_025151_102959_081557,
  1_023500_000001_000003_000003_000001_000003_000039_000057_000199_000087_000091_001641_003407_002823_010441_026357_056677_017647_086831,
  1_023511_000001_000003_000005_000007_000015_000005_000049_000227_000395_000837_001707_001677_001907_013101_001929_061701_001479_080671,
  1_023548_000001_000001_000001_000011_000017_000057_000037_000151_000061_000709_002027_002239_003283_005467_017221_040759_091637_258167,
  1_023560_000001_000003_000005_000011_000027_000029_000121_000181_000503_000705_000225_001111_007183_003219_003233_002085_113619_032959]

def dirRows18_0_14 : List Nat := [
  1_023563_000001_000001_000007_000005_000029_000031_000093_000113_000457_000161_000337_002003_001865_013357_019961_051485_062751_111285,
  1_023594_000001_000003_000001_000001_000023_000025_000065_000099_000011_000835_000661_003291_002655_001135_019957_005029_110483_002499,
  1_023601_000001_000001_000001_000001_000025_000021_000059_000203_000471_000697_000455_001561_003215_000609_005097_008715_115705_021441,
  1_023625_000001_000001_000005_000013_000027_000037_000015_000175_000191_000975_000977_000401_007053_014291_014621_048989_113033_172569,
  1_023640_000001_000003_000001_000001_000019_000011_000125_000053_000307_000421_000093_002487_005907_002195_030569_021009_020759_246937,
  1_023650_000001_000003_000007_000003_000023_000021_000103_000115_000453_000537_000473_001069_003007_015111_003477_005635_046423_068633,
  1_023662_000001_000003_000003_000001_000021_000001_000049_000197_000173_000775_001877_001309_000729_003555_005981_032539_022765_171077,
  1_023692_000001_000001_000003_000013_000019_000005_000075_000149_000441_000665_001567_002433_008173_012639_027479_047221_066203_089017,
  1_023726_000001_000001_000001_000011_000001_000055_000099_000119_000491_000621_000619_002521_000905_011601_026481_002023_127413_220387,
  1_023738_000001_000001_000007_000011_000009_000021_000057_000093_000243_000229_001445_000997_001317_002327_014141_045787_082295_072823,
  1_023743_000001_000003_000007_000003_000011_000007_000115_000143_000349_000507_001047_002573_002491_013351_019019_004857_062781_261261,
  1_023755_000001_000001_000003_000001_000001_000013_000045_000227_000041_000947_000693_002853_007459_001485_022087_061195_111771_136389,
  1_023760_000001_000001_000003_000011_000013_000053_000049_000015_000425_000029_000681_001493_001385_009555_013291_036735_012351_029293,
  1_023799_000001_000001_000003_000001_000005_000019_000037_000045_000069_000209_000365_003949_006163_005207_009297_021147_071437_040487,
  1_023848_000001_000003_000003_000013_000031_000021_000009_000177_000095_000285_001953_001969_007367_007401_012017_009939_011895_213133,
  1_023859_000001_000001_000007_000001_000001_000063_000103_000141_000039_000679_000123_002941_004335_000199_012237_006599_048641_140063,
  1_023876_000001_000003_000007_000003_000031_000017_000021_000077_000065_000979_000109_003325_001781_006983_031477_023149_033943_096137,
  1_023897_000001_000003_000003_000005_000021_000005_000125_000117_000427_000381_000511_002643_000409_004945_003167_045879_001469_056077,
  1_023907_000001_000003_000001_000005_000027_000043_000083_000031_000065_000645_001205_001387_000723_015359_013517_023601_061717_047079,
  1_023919_000001_000003_000003_000013_000015_000037_000101_000175_000225_000513_000483_001291_000669_005335_016023_000287_051819_239803,
  1_023921_000001_000003_000003_000003_000003_000001_000075_000175_000185_000949_000673_002239_004355_010687_027093_037409_023193_211819,
  1_023931_000001_000001_000003_000013_000021_000003_000041_000055_000243_000501_000285_000007_006291_007725_017051_045753_115117_014323,
  1_023933_000001_000001_000001_000005_000013_000011_000051_000175_000435_000673_000067_001525_000323_005739_019977_062317_097511_130883,
  1_023943_000001_000003_000005_000011_000007_000011_000097_000059_000295_000409_000453_002439_005217_010315_000469_031187_017325_158079,
  1_023957_000001_000001_000003_000005_000031_000009_000015_000063_000411_000427_000277_002687_005021_001507_022453_035559_122081_121669,
  1_023986_000001_000003_000005_000013_000003_000021_000069_000051_000027_000571_001981_002729_005733_001225_026821_043763_057355_169279,
  1_024020_000001_000001_000001_000013_000031_000037_000033_000019_000313_000341_001141_001689_004511_000789_015317_061263_079371_065157,
  1_024043_000001_000003_000003_000015_000027_000041_000107_000023_000499_000339_000273_001937_002743_010879_027127_064817_001217_045863,
  1_024064_000001_000001_000005_000009_000019_000043_000125_000223_000473_000489_001999_001513_006479_009511_012503_029419_022559_209499,
  1_024082_000001_000003_000001_000013_000025_000055_000053_000061_000303_000337_001325_002525_006503_001155_006841_058167_008175_183949,
  1_024084_000001_000003_000003_000011_000003_000015_000055_000105_000497_000527_001007_003545_004187_008723_012761_020751_101583_225373,
  1_024088_000001_000003_000003_000009_000019_000059_000057_000215_000313_000871_000407_002475_000879_015147_031945_023939_104073_217619,
  1_024117_000001_000001_000003_000001_000027_000023_000003_000043_000471_000757_001525_003003_002779_006731_012423_059621_072935_192283,
  1_024149_000001_000003_000001_000007_000013_000023_000013_000091_000095_000745_000639_002627_004595_011735_004143_023573_098647_171201,
  1_024165_000001_000001_000001_000015_000003_000061_000033_000181_000351_000777_001365_001691_002465_005289_024567_008059_095301_075855,
  1_024223_000001_000003_000005_000013_000001_000057_000057_000187_000001_000601_000563_001703_001307_014673_007793_044589_007629_254071,
  1_024247_000001_000001_000005_000013_000029_000017_000061_000233_000371_000909_000529_000185_000127_015773_019529_049271_026749_070869,
  1_024259_000001_000001_000003_000009_000021_000041_000037_000071_000505_000969_000301_001667_005879_013187_002461_017301_103673_235133,
  1_024283_000001_000003_000001_000003_000009_000013_000075_000063_000313_000273_001061_003821_000539_009887_019775_017259_093133_217245,
  1_024296_000001_000003_000005_000005_000021_000027_000009_000011_000461_000575_000507_000577_004559_009995_013953_061023_121941_195419,
  1_024336_000001_000003_000003_000007_000017_000017_000045_000193_000271_000571_001337_002107_001923_004791_023773_060923_058085_081219,
  1_024342_000001_000003_000001_000007_000011_000007_000085_000033_000231_000307_000993_001509_001427_009545_007919_039775_081145_079139,
  1_024389_000001_000003_000005_000003_000009_000057_000117_000187_000057_000719_001635_002499_006747_006649_022643_016429_083233_122057,
  1_024394_000001_000001_000003_000011_000007_000039_000103_000221_000167_000181_001355_000989_003399_009471_010493_057267_106551_158599,
  1_024414_000001_000003_000001_000015_000023_000019_000029_000011_000355_000923_001401_000509_003647_005663_002353_053217_070687_145613,
  1_024424_000001_000003_000003_000011_000011_000005_000021_000107_000177_000429_000119_001029_005931_007543_015455_062797_118095_035387,
  1_024441_000001_000003_000005_000015_000019_000053_000017_000215_000279_000497_001157_002235_005541_005899_020711_020843_113821_164231,
  1_024491_000001_000001_000001_000015_000021_000033_000067_000247_000055_000573_001863_002703_005267_004071_018235_044659_102379_171529,
  1_024502_000001_000003_000001_000015_000005_000059_000069_000189_000313_000243_000339_003097_004999_005909_001903_056143_076209_083073,
  1_024534_000001_000003_000005_000015_000011_000041_000065_000207_000095_000115_001203_003731_006845_011173_008281_040623_097119_218455,
  1_024540_000001_000003_000007_000013_000029_000057_000005_000031_000255_000539_000107_000953_003707_009233_020295_017459_002005_056193,
  1_024543_000001_000001_000001_000015_000005_000031_000083_000165_000211_000433_001411_002949_004817_001645_001693_009877_118493_142923,
  1_024549_000001_000003_000001_000011_000019_000061_000035_000021_000159_000159_001717_003227_003351_008641_020575_013721_114649_129201,
  1_024567_000001_000003_000001_000013_000009_000041_000017_000007_000209_000501_000445_000023_007911_005867_030129_000643_036363_052037,
  1_024583_000001_000003_000005_000011_000031_000055_000027_000081_000413_000167_000599_002231_007055_004013_026729_063927_012075_208123,
  1_024693_000001_000001_000007_000009_000011_000039_000099_000187_000169_000999_000609_003647_002497_008969_030919_029145_067699_051601,
  1_024704_000001_000003_000001_000001_000011_000011_000069_000029_000197_000979_001135_000869_005435_005151_026349_055911_068051_131849,
  1_024719_000001_000001_000001_000005_000027_000001_000085_000145_000439_000585_001713_000677_001833_014139_005547_031265_082223_047605,
  1_024749_000001_000003_000005_000009_000017_000023_000031_000199_000447_000551_000683_002977_007839_008681_015923_061057_089875_052945,
  1_024799_000001_000001_000003_000011_000009_000017_000029_000125_000195_000123_001259_002729_003099_002229_009683_013121_105399_111833,
  1_024830_000001_000003_000001_000003_000001_000047_000093_000117_000461_000633_001641_000933_007927_013569_000483_028159_121561_164325,
  1_024835_000001_000003_000001_000005_000021_000019_000079_000183_000395_000023_000767_000519_004857_010385_012425_026207_114623_037125,
  1_024907_000001_000001_000005_000005_000009_000047_000067_000217_000499_000843_001539_000301_001485_003157_022375_047199_026215_182785,
  1_024917_000001_000001_000001_000013_000009_000037_000087_000049_000445_000681_001097_001049_004093_013167_018447_058243_041797_217929,
  1_024940_000001_000001_000005_000013_000013_000049_000021_000149_000079_000113_001217_000921_006321_009345_027987_021723_049249_018813,
  1_024943_000001_000003_000001_000003_000015_000027_000067_000069_000131_000713_001741_001955_005665_008749_011971_011257_013999_124535,
  1_024958_000001_000003_000001_000003_000003_000011_000021_000167_000441_000557_000593_003261_003099_002801_021725_023247_106891_129187,
  1_024962_000001_000001_000001_000011_000005_000055_000033_000071_000505_000085_001609_000521_005459_012777_013007_000255_067537_002877,
  1_024964_000001_000001_000001_000003_000031_000047_000049_000119_000351_000797_001407_004089_002381_012409_012849_023489_053631_119387,
  1_024968_000001_000003_000005_000011_000025_000011_000025_000185_000085_000849_000141_000385_003663_013133_008451_061463_035129_149933,
  1_025015_000001_000003_000007_000009_000023_000017_000021_000197_000015_000893_000939_000707_005491_007249_014009_018973_111545_036809,
  1_025024_000001_000003_000003_000013_000023_000015_000019_000193_000223_000627_001529_001963_001003_007199_015361_025233_110281_221761,
  1_025027_000001_000003_000003_000001_000017_000051_000061_000215_000311_000919_000349_000059_002897_012137_005931_037611_124387_083503,
  1_025033_000001_000003_000007_000009_000013_000047_000053_000139_000481_000733_000389_001209_003281_000593_029103_061521_041445_011015,
  1_025041_000001_000001_000001_000013_000003_000031_000019_000047_000151_000883_001707_000827_002129_004333_000871_042967_079701_192211,
  1_025047_000001_000003_000003_000011_000011_000051_000121_000241_000199_000881_001493_002381_005161_013287_008155_052481_120307_206203,
  1_025057_000001_000001_000001_000013_000015_000037_000027_000151_000017_000851_001343_001447_000043_010267_018267_021347_129277_083987,
  1_025082_000001_000001_000003_000003_000013_000017_000053_000217_000253_000853_001461_001953_000617_004209_009925_000377_042789_150415,
  1_025093_000001_000003_000007_000011_000013_000023_000083_000235_000039_000701_001091_000025_001807_015431_002169_005339_123679_117053,
  1_025105_000001_000003_000007_000013_000003_000029_000043_000149_000033_000873_001177_001961_007943_011317_030725_055765_050929_012335,
  1_025112_000001_000001_000003_000005_000025_000001_000091_000121_000295_000025_001743_002125_002643_011175_015089_044979_028355_000543,
  1_025117_000001_000001_000001_000013_000027_000027_000043_000195_000377_000821_000437_003445_002673_015221_015101_025143_022347_218549,
  1_025131_000001_000001_000003_000007_000009_000051_000121_000231_000091_000913_001325_000167_008067_008119_009307_033551_058069_170567,
  1_025139_000001_000003_000007_000007_000015_000007_000085_000051_000011_000353_001117_002479_003091_002377_023589_038537_113047_261285,
  1_025194_000001_000001_000003_000005_000015_000033_000061_000145_000147_000815_000767_000009_002059_011463_001883_008565_101043_117565,
  1_025204_000001_000003_000005_000003_000005_000049_000005_000033_000015_000013_000895_003973_007963_003831_026817_010799_111409_090679,
  1_025244_000001_000001_000005_000007_000005_000051_000035_000237_000217_000531_000719_002711_001937_016071_023233_022799_066023_145739,
  1_025247_000001_000003_000005_000001_000005_000063_000001_000163_000009_000697_001379_002989_007113_009821_015941_006495_007825_029715,
  1_025253_000001_000003_000005_000007_000009_000041_000113_000173_000151_000963_002019_003531_001133_004287_016917_016929_012345_031201,
  1_025258_000001_000003_000007_000001_000025_000009_000005_000195_000175_000297_000717_003725_000033_005155_004405_056171_105597_132407,
  1_025275_000001_000001_000007_000007_000003_000059_000115_000095_000227_000951_000843_000619_007791_010981_011773_057651_108391_179561,
  1_025320_000001_000003_000003_000001_000009_000003_000059_000161_000417_000413_001933_001027_004575_010427_015643_016049_120089_176607,
  1_025338_000001_000003_000003_000003_000015_000001_000083_000195_000059_000859_001669_001063_002069_015875_016459_053741_114521_037641,
  1_025343_000001_000001_000001_000011_000011_000045_000047_000143_000011_000239_001329_000865_002693_000899_026265_043255_125679_130099,
  1_025351_000001_000003_000005_000003_000031_000051_000095_000127_000079_000167_000117_003177_005875_014039_020341_047815_118799_211871,
  1_025358_000001_000001_000001_000001_000003_000021_000065_000203_000011_000565_000537_001307_008189_011423_007745_056117_110959_095361,
  1_025372_000001_000001_000007_000007_000021_000063_000063_000231_000441_000127_001943_000013_004813_010607_023867_043891_015801_173245,
  1_025399_000001_000003_000003_000005_000025_000023_000123_000133_000129_000303_001993_001453_001109_004649_030315_062399_121575_060069,
  1_025408_000001_000003_000005_000003_000029_000023_000069_000141_000137_001017_001915_000035_003817_006249_022427_007281_088473_230167,
  1_025432_000001_000003_000007_000007_000019_000037_000093_000217_000287_000731_000583_003377_002879_004873_005549_052949_127285_211173]

def dirRows18_0_15 : List Nat := [
  1_025442_000001_000001_000005_000007_000023_000041_000049_000145_000277_000571_001225_000455_002133_001229_025421_020179_070919_242825,
  1_025462_000001_000003_000005_000005_000029_000003_000001_000089_000413_000901_001343_003963_006969_014649_018331_004573_082077_100693,
  1_025465_000001_000001_000001_000013_000031_000053_000107_000095_000151_000539_001593_003763_001007_008959_025235_016461_121819_106143,
  1_025468_000001_000001_000001_000003_000011_000015_000005_000157_000347_000081_002013_002025_006541_012287_001315_023285_023539_075027,
  1_025482_000001_000001_000005_000007_000017_000011_000065_000157_000093_000607_001445_004089_003139_004699_001225_058935_093673_146467,
  1_025489_000001_000003_000003_000013_000029_000059_000069_000141_000257_000463_000093_000649_008179_015205_006943_045317_031269_070825,
  1_025490_000001_000003_000005_000009_000023_000039_000113_000061_000315_000463_001739_000149_006007_002789_012021_000969_018551_153669,
  1_025505_000001_000001_000003_000015_000019_000009_000023_000211_000265_000877_000325_002635_008131_004957_024371_060975_003887_198927,
  1_025511_000001_000001_000003_000011_000029_000031_000005_000105_000157_000573_002009_001701_001549_001641_017429_013587_048421_008675,
  1_025512_000001_000001_000005_000013_000003_000013_000017_000055_000101_000369_000705_003635_005195_010439_012881_021565_001671_075489,
  1_025552_000001_000003_000003_000001_000001_000023_000085_000189_000347_000205_000005_003465_003269_003347_010163_026921_086555_009387,
  1_025555_000001_000003_000007_000015_000027_000021_000079_000151_000279_000627_001093_001929_005549_012141_005245_055747_065939_193759,
  1_025595_000001_000001_000001_000005_000005_000023_000057_000235_000143_000129_000795_000035_004375_012577_000871_020879_082811_052279,
  1_025636_000001_000003_000001_000005_000011_000001_000125_000099_000089_000629_000857_002631_000393_015075_027473_042695_061505_239651,
  1_025672_000001_000001_000005_000001_000009_000011_000055_000203_000453_000677_000259_001979_004101_016067_026783_017907_075349_062797,
  1_025685_000001_000003_000007_000005_000005_000019_000085_000165_000341_000405_001779_000087_000889_000265_009851_036175_069697_123769,
  1_025696_000001_000003_000007_000001_000007_000049_000093_000057_000085_000597_000183_003253_006301_009307_008753_038133_058743_019621,
  1_025720_000001_000001_000003_000009_000001_000015_000125_000215_000391_000141_000087_000037_004333_005033_030549_064281_018577_156093,
  1_025730_000001_000003_000003_000015_000017_000025_000029_000081_000339_000865_001619_000773_000901_008163_022275_057159_119951_137451,
  1_025735_000001_000003_000005_000015_000007_000057_000113_000221_000013_000049_001653_003695_004423_004383_028669_064175_130355_202543,
  1_025753_000001_000001_000003_000009_000029_000021_000019_000119_000409_000717_001853_003981_004489_003985_031205_010423_013223_131973,
  1_025756_000001_000001_000003_000015_000029_000007_000001_000085_000133_000345_000317_002363_007803_004975_019441_010497_042059_131531,
  1_025769_000001_000001_000007_000013_000003_000053_000049_000027_000487_000901_000801_000335_006317_014205_026655_052747_102659_231359,
  1_025821_000001_000003_000003_000003_000013_000033_000113_000107_000407_000499_000903_003059_001343_011859_006315_023071_073627_044239,
  1_025825_000001_000003_000005_000015_000001_000053_000059_000247_000213_000981_000443_000003_000615_012067_003881_061759_101219_110407,
  1_025840_000001_000003_000005_000013_000007_000031_000087_000161_000061_001023_000147_002075_007245_009025_007229_060935_104481_169561,
  1_025860_000001_000003_000001_000015_000025_000017_000053_000107_000311_000621_001493_002443_004635_012163_012543_043031_090843_139645,
  1_025869_000001_000003_000005_000011_000007_000049_000091_000165_000091_000329_000493_003533_007429_007047_014767_031641_062005_077267,
  1_025872_000001_000001_000003_000009_000031_000021_000019_000167_000185_000199_001989_001093_004213_004769_021659_019685_122123_215233,
  1_025956_000001_000003_000003_000007_000027_000023_000099_000205_000365_000689_001281_000419_004207_005355_020245_025029_123029_061499,
  1_025973_000001_000003_000003_000007_000019_000015_000029_000185_000165_000203_001859_002895_006361_006331_013641_042577_033757_041305,
  1_025994_000001_000003_000005_000011_000021_000043_000015_000011_000425_000125_001597_001109_003335_007009_020799_041261_127813_181261,
  1_026002_000001_000001_000005_000005_000027_000035_000035_000159_000111_001011_001487_000813_004985_002555_023741_044675_097159_250477,
  1_026020_000001_000003_000003_000007_000017_000041_000081_000187_000367_000767_001345_000205_005797_009129_021973_039911_130131_096891,
  1_026023_000001_000003_000005_000001_000001_000047_000057_000177_000127_000791_001427_001895_005995_012569_032711_058599_055641_080405,
  1_026041_000001_000003_000003_000001_000023_000013_000115_000081_000511_000677_000775_003143_004963_007093_015963_059893_022609_137601,
  1_026044_000001_000001_000005_000009_000017_000017_000115_000127_000397_000139_001171_000207_003485_015869_000465_026267_029957_205459,
  1_026069_000001_000003_000007_000003_000009_000029_000023_000189_000447_000481_000753_002415_002669_006007_015201_007317_018861_173759,
  1_026097_000001_000003_000005_000007_000013_000043_000013_000163_000363_000683_001869_001237_002523_003661_013887_005593_091513_220177,
  1_026113_000001_000001_000001_000011_000007_000011_000043_000039_000319_000793_000375_003159_007621_008965_025743_000351_031873_018115,
  1_026138_000001_000001_000005_000005_000011_000057_000079_000147_000055_000553_000417_001365_003979_009789_022677_058645_104549_009019,
  1_026167_000001_000001_000003_000011_000017_000037_000127_000005_000165_000867_000079_002259_000197_004789_028109_046721_003431_118939,
  1_026216_000001_000001_000005_000013_000019_000045_000113_000011_000125_000351_001753_003201_001697_002567_009717_022247_084309_248583,
  1_026230_000001_000001_000005_000009_000005_000037_000065_000047_000261_000855_001573_002267_007977_013029_032527_059805_103591_180041,
  1_026243_000001_000003_000003_000009_000031_000005_000115_000159_000111_000899_001907_002671_001575_007021_010281_034905_000641_063549,
  1_026245_000001_000003_000005_000001_000017_000061_000045_000009_000375_000761_000117_001767_004657_012217_012067_042807_118587_072715,
  1_026263_000001_000001_000001_000013_000003_000003_000093_000003_000351_000097_000119_001743_000081_012761_022529_047191_111315_256501,
  1_026264_000001_000001_000005_000007_000029_000023_000041_000009_000231_000567_001565_003539_007241_011535_007375_010391_127045_009371,
  1_026269_000001_000001_000001_000015_000023_000047_000039_000057_000073_000809_000513_003233_008071_008595_013817_000821_089091_107173,
  1_026311_000001_000001_000001_000013_000013_000043_000075_000239_000487_000175_001561_003925_003743_014247_015713_055005_116135_199827,
  1_026346_000001_000001_000003_000007_000013_000015_000067_000147_000077_000241_001763_000651_001107_004943_015651_023259_045931_034717,
  1_026354_000001_000001_000003_000005_000015_000015_000067_000153_000163_000179_001567_000685_003245_002205_008373_056567_032091_023313,
  1_026365_000001_000001_000007_000009_000001_000027_000079_000209_000263_000517_000635_000003_000103_002173_022659_011319_103757_144449,
  1_026368_000001_000001_000001_000005_000011_000063_000021_000089_000443_000775_000327_001559_001421_002309_018597_046385_016547_186813,
  1_026398_000001_000001_000007_000009_000027_000037_000043_000007_000305_000117_001103_001801_003349_012225_028215_008857_118677_088909,
  1_026401_000001_000003_000003_000007_000015_000059_000021_000019_000371_000081_000755_001565_004823_016363_020301_033571_074423_177205,
  1_026426_000001_000001_000003_000009_000015_000033_000023_000031_000171_000713_000271_002437_003609_004271_024355_046283_121767_188501,
  1_026436_000001_000001_000001_000001_000021_000003_000003_000241_000339_000211_000443_001577_000343_002625_001077_029933_106401_051439,
  1_026443_000001_000003_000005_000015_000013_000031_000011_000167_000015_000101_000373_002095_003017_001347_015029_006579_021233_087589,
  1_026448_000001_000003_000001_000003_000015_000001_000061_000239_000013_000867_001621_002275_005757_008275_007923_044469_113513_084927,
  1_026458_000001_000001_000001_000013_000023_000027_000101_000025_000459_000517_000127_001131_000669_013209_023671_003379_066091_072919,
  1_026464_000001_000003_000005_000007_000029_000053_000025_000185_000101_000707_000281_000183_002823_007241_003127_048093_020195_208349,
  1_026476_000001_000003_000003_000015_000031_000011_000003_000165_000453_000609_001053_003937_001989_013887_013415_008005_103537_017853,
  1_026503_000001_000001_000003_000007_000003_000041_000013_000067_000227_000265_000767_000391_001835_008827_013131_042605_117089_012475,
  1_026504_000001_000001_000007_000003_000015_000031_000045_000157_000261_000207_001109_001587_005389_013239_031697_035969_079839_209633,
  1_026515_000001_000001_000005_000009_000031_000003_000035_000187_000005_000945_000633_002645_000171_002221_018369_041765_082373_008007,
  1_026531_000001_000001_000007_000007_000003_000057_000073_000103_000245_000811_001637_000101_006335_009911_000663_021779_031681_119141,
  1_026548_000001_000001_000005_000013_000027_000025_000005_000203_000183_000251_001803_000665_006295_000965_005269_000379_078455_007097,
  1_026570_000001_000001_000005_000003_000019_000055_000045_000161_000481_000737_001903_001093_003313_004427_007959_006231_094769_123827,
  1_026589_000001_000001_000007_000011_000029_000041_000077_000165_000049_000875_000137_002003_008093_001941_025979_010765_099241_071275,
  1_026594_000001_000003_000005_000003_000023_000001_000089_000163_000293_000701_000029_002543_004487_014873_028123_048643_031633_074179,
  1_026608_000001_000001_000007_000001_000013_000033_000033_000173_000111_000959_000205_001633_003127_003963_006455_041809_060655_247121,
  1_026623_000001_000003_000005_000013_000001_000049_000087_000217_000381_000125_000823_000837_003967_008157_011097_035721_093591_003939,
  1_026678_000001_000003_000007_000001_000007_000027_000029_000021_000295_000127_000823_002409_001873_002417_027961_039211_014785_071557,
  1_026690_000001_000003_000001_000005_000031_000059_000043_000121_000217_000417_002029_003983_005629_010447_001073_057515_058849_178927,
  1_026709_000001_000003_000003_000011_000005_000059_000045_000039_000269_000483_000757_003245_004383_011127_026535_017395_060953_259333,
  1_026725_000001_000001_000001_000005_000005_000049_000081_000241_000371_000353_001293_003375_006725_011891_005973_013901_037999_017751,
  1_026744_000001_000003_000003_000007_000031_000021_000045_000107_000033_000911_001869_002643_002655_003979_005509_033065_128463_246937,
  1_026763_000001_000001_000001_000001_000031_000033_000099_000029_000485_000011_001423_001775_002045_000741_030691_053957_013891_057303,
  1_026765_000001_000001_000007_000013_000007_000037_000117_000121_000051_000743_000887_001769_001049_012859_001663_027763_090969_038935,
  1_026768_000001_000003_000005_000007_000003_000041_000121_000089_000461_000979_000457_002973_008109_013819_030237_054671_066967_135233,
  1_026784_000001_000001_000007_000013_000013_000047_000051_000121_000295_000847_000681_001163_008123_014179_026561_054057_074043_146155,
  1_026802_000001_000003_000003_000011_000021_000015_000009_000085_000445_000011_001525_003165_005929_012481_010769_031885_051487_248933,
  1_026814_000001_000003_000001_000009_000025_000041_000059_000139_000293_001021_002043_000967_003949_007309_006545_062761_037761_022395,
  1_026856_000001_000003_000007_000015_000025_000045_000029_000075_000283_000845_000687_003285_007263_010237_005343_058635_085137_002387,
  1_026861_000001_000001_000003_000015_000029_000033_000111_000175_000251_000181_000709_001373_001661_001155_030479_057823_028809_074117,
  1_026862_000001_000003_000003_000005_000011_000037_000055_000155_000439_000173_001861_001713_001675_012119_012531_050995_124657_058321,
  1_026894_000001_000001_000005_000013_000001_000023_000027_000141_000003_000985_001439_000781_007381_002223_026673_046607_054953_024547,
  1_026908_000001_000001_000005_000007_000005_000003_000041_000115_000503_000731_000633_003631_003455_015937_022639_041163_065243_233749,
  1_026915_000001_000003_000001_000001_000005_000057_000089_000035_000053_000653_001763_001247_006999_001811_028191_052327_129421_191093,
  1_026929_000001_000003_000003_000009_000003_000027_000107_000013_000475_000409_001623_000483_003127_012841_004777_036157_024967_089795,
  1_026930_000001_000001_000003_000005_000007_000029_000015_000225_000257_000923_000251_000021_004559_003571_009351_001739_037393_170789,
  1_026939_000001_000003_000007_000005_000011_000007_000107_000237_000343_000665_000767_002293_004781_004811_011227_025045_003951_044307,
  1_026941_000001_000003_000007_000007_000013_000031_000047_000009_000121_000441_001011_002015_008053_000355_013441_023213_060675_259761,
  1_026987_000001_000001_000005_000009_000021_000061_000085_000141_000271_000577_000017_000243_003049_002479_028947_053351_067379_211133,
  1_027023_000001_000001_000001_000015_000023_000001_000119_000141_000311_000543_001463_003633_008111_009439_004147_064913_028261_197217,
  1_027066_000001_000003_000001_000015_000015_000033_000125_000231_000225_000797_000605_000259_003673_010423_007541_026289_061681_136463,
  1_027079_000001_000003_000001_000013_000023_000015_000015_000151_000289_000657_001883_002923_006861_001411_017159_009353_079463_135813,
  1_027086_000001_000003_000007_000011_000005_000059_000101_000167_000291_000063_000753_001105_008173_002389_022097_007207_110377_015797,
  1_027091_000001_000003_000007_000015_000007_000009_000007_000135_000303_000675_001803_002827_001711_009543_016567_024075_017065_022193]

def dirRows18_0_16 : List Nat := [
  1_027113_000001_000003_000005_000007_000017_000007_000125_000057_000423_000733_001813_004031_000713_010687_027315_037599_078807_103429,
  1_027157_000001_000001_000005_000015_000021_000011_000087_000021_000415_000571_001169_002561_007071_012499_000195_020111_116757_157731,
  1_027174_000001_000003_000003_000015_000007_000033_000011_000241_000023_000189_000599_002891_002829_013327_021777_057733_038583_162161,
  1_027188_000001_000001_000001_000015_000003_000049_000007_000143_000291_000301_001439_000793_003447_001167_002815_024875_117437_112561,
  1_027191_000001_000003_000005_000013_000029_000011_000051_000255_000365_000741_001919_002091_002865_012721_004329_037281_128703_000739,
  1_027197_000001_000001_000001_000013_000019_000031_000039_000141_000081_000133_000297_003837_007537_016043_011755_010289_074399_095371,
  1_027206_000001_000001_000007_000005_000021_000035_000125_000109_000241_000217_001219_002617_001925_009573_019305_044689_089365_248869,
  1_027210_000001_000003_000005_000005_000013_000033_000043_000221_000325_000267_000837_000809_006025_009847_009267_013465_045937_204339,
  1_027245_000001_000003_000001_000003_000025_000053_000085_000249_000105_000619_000917_001213_005365_006197_022929_027529_071011_141651,
  1_027254_000001_000001_000005_000001_000029_000009_000027_000161_000269_000775_001043_000303_004503_005059_000479_017237_051383_152495,
  1_027383_000001_000003_000001_000005_000019_000005_000127_000139_000001_000461_000943_000593_007457_003357_001909_064633_091811_092703,
  1_027387_000001_000001_000005_000007_000001_000021_000083_000029_000123_000083_001085_002727_000651_015801_020561_034821_017671_162227,
  1_027416_000001_000003_000007_000001_000019_000059_000033_000195_000081_000069_000051_001473_003873_004247_003587_004293_030831_245345,
  1_027422_000001_000003_000001_000003_000023_000027_000019_000115_000275_000293_000705_000131_001001_008881_030165_025149_038679_175167,
  1_027472_000001_000001_000003_000015_000011_000011_000079_000055_000323_000217_000859_000897_006567_012529_003161_013009_100787_003501,
  1_027478_000001_000003_000001_000015_000017_000063_000051_000071_000055_000207_001095_002527_000611_009281_007375_014553_016021_088537,
  1_027548_000001_000001_000007_000009_000011_000023_000095_000025_000327_000873_000575_003583_006587_000137_023737_059341_083281_093541,
  1_027579_000001_000001_000005_000007_000015_000037_000089_000105_000471_000757_000103_003747_003565_004957_023537_016193_084843_256757,
  1_027582_000001_000003_000005_000001_000015_000017_000119_000231_000387_000715_000797_003807_004985_008335_004885_045541_069597_238599,
  1_027589_000001_000001_000003_000001_000007_000021_000087_000205_000039_000503_000433_003643_004719_002051_010049_028997_075981_253647,
  1_027593_000001_000003_000001_000013_000009_000021_000103_000063_000027_000267_000185_003507_003009_005183_002261_040249_033733_070493,
  1_027613_000001_000001_000003_000013_000007_000007_000079_000013_000141_000327_001035_001699_006273_005621_013877_057607_050207_184643,
  1_027649_000001_000001_000003_000001_000009_000019_000075_000099_000115_000469_001025_001999_001985_009975_011069_059113_080877_124153,
  1_027717_000001_000003_000005_000007_000019_000027_000047_000003_000313_000575_000107_000991_002575_011001_012323_021443_126245_219649,
  1_027729_000001_000001_000001_000005_000019_000033_000013_000001_000357_000225_001355_001827_007127_006387_019299_024935_026847_251433,
  1_027751_000001_000001_000001_000005_000003_000003_000113_000019_000425_000209_000159_000347_001349_006771_013125_008393_021435_186369,
  1_027757_000001_000001_000005_000011_000005_000039_000095_000003_000193_000741_001755_003361_001927_012909_005413_029111_123429_109191,
  1_027766_000001_000001_000001_000013_000031_000023_000043_000163_000421_000719_000457_003149_007741_001465_015719_042831_099051_164675,
  1_027791_000001_000001_000001_000007_000015_000001_000029_000015_000009_000577_000269_000031_004361_005081_032185_054869_115105_151233,
  1_027794_000001_000001_000001_000011_000019_000003_000067_000003_000377_000487_001287_003463_006523_015237_003171_038673_007359_029739,
  1_027854_000001_000003_000005_000011_000009_000013_000047_000191_000097_000641_000807_001085_001537_002855_024615_032383_066425_053713,
  1_027856_000001_000001_000005_000007_000019_000025_000093_000001_000021_000853_000813_002535_004291_009051_003385_000507_073889_085397,
  1_027866_000001_000001_000003_000013_000007_000015_000103_000199_000083_000585_001859_002089_000839_008923_014615_003399_007703_229937,
  1_027875_000001_000001_000003_000003_000011_000023_000125_000135_000475_000613_000327_000339_003081_013221_004889_041233_036547_195357,
  1_027902_000001_000003_000007_000007_000019_000023_000085_000217_000501_000447_001873_002175_006753_002825_005171_047561_013321_059583,
  1_027916_000001_000001_000005_000013_000023_000059_000109_000195_000487_000785_000021_001595_005641_010103_008115_060647_078425_237379,
  1_027924_000001_000001_000003_000015_000021_000017_000085_000051_000369_000475_001021_001129_007233_006593_012467_055399_128157_080539,
  1_027933_000001_000003_000003_000009_000031_000027_000069_000145_000489_000251_001997_001157_002027_016109_004085_024859_063561_079591,
  1_027940_000001_000003_000003_000005_000029_000049_000041_000185_000405_000471_000431_003539_006593_001185_024383_017009_111215_079839,
  1_027947_000001_000001_000007_000003_000003_000015_000097_000157_000301_000227_000717_003291_002471_011515_030657_030745_072147_098653,
  1_027969_000001_000003_000005_000001_000023_000021_000067_000223_000185_000385_000137_002897_002423_006119_028471_052269_095725_009105,
  1_027981_000001_000003_000003_000011_000019_000001_000111_000131_000293_000495_001043_000631_001375_015347_022029_029163_120025_081631,
  1_027996_000001_000001_000007_000005_000017_000055_000047_000183_000367_000081_000555_002857_004787_005605_032053_011815_081771_234993,
  1_028005_000001_000003_000007_000015_000015_000049_000045_000221_000049_000299_000887_003991_002097_010819_023297_001823_011319_205273,
  1_028030_000001_000001_000001_000001_000001_000015_000091_000253_000213_000849_000501_001073_005503_001379_028887_051811_109763_226149,
  1_028064_000001_000001_000001_000007_000027_000039_000017_000029_000359_000655_001695_001781_001203_001125_008983_003477_013925_218399,
  1_028102_000001_000003_000007_000013_000001_000025_000033_000185_000087_000019_000151_000371_001221_004859_020103_011435_104263_218515,
  1_028108_000001_000001_000003_000005_000017_000043_000029_000149_000207_000039_001539_002933_006825_012391_018163_024543_035305_196295,
  1_028120_000001_000003_000007_000009_000021_000061_000069_000231_000401_000095_001757_000839_003395_007573_006583_034621_119303_020767,
  1_028125_000001_000001_000007_000001_000025_000053_000063_000105_000241_000591_000023_003219_002387_013945_003047_030939_063243_060941,
  1_028130_000001_000001_000005_000007_000025_000047_000007_000227_000057_000279_000081_004017_003117_006229_020029_030031_025049_102291,
  1_028142_000001_000003_000003_000001_000021_000015_000069_000057_000311_000009_000853_003377_002949_004781_015419_054741_011603_136821,
  1_028149_000001_000003_000003_000013_000013_000005_000103_000253_000027_000449_000821_003241_000041_006643_015217_061691_058463_046117,
  1_028165_000001_000001_000007_000007_000027_000051_000001_000239_000071_000955_000145_001059_005645_007025_004839_011459_003051_235989,
  1_028169_000001_000001_000005_000015_000015_000013_000033_000021_000209_000681_001163_003109_001441_006895_020829_048769_035373_195171,
  1_028177_000001_000001_000007_000003_000011_000007_000025_000027_000463_000077_001293_001977_004931_008089_011079_014793_123049_032259,
  1_028211_000001_000003_000001_000015_000011_000049_000007_000103_000079_000773_000235_001653_006477_008835_026627_061101_040633_098155,
  1_028213_000001_000003_000005_000007_000003_000053_000077_000197_000049_000057_001533_003485_006603_001131_009073_037023_085293_170883,
  1_028220_000001_000003_000007_000015_000023_000005_000125_000075_000413_000521_001897_001099_000035_002013_000687_051511_021359_019995,
  1_028261_000001_000003_000001_000011_000019_000013_000091_000181_000039_000613_001917_003149_000669_009927_020967_038313_013537_181873,
  1_028271_000001_000003_000005_000007_000005_000023_000025_000145_000189_000679_000483_002689_002855_009631_008863_034841_083311_211507,
  1_028299_000001_000003_000005_000015_000015_000015_000087_000053_000309_000807_001405_000259_003181_012187_031529_008861_070557_247787,
  1_028326_000001_000001_000007_000013_000007_000015_000001_000205_000091_000325_001371_000531_004917_010291_030827_032491_034497_250301,
  1_028330_000001_000003_000001_000011_000029_000017_000097_000037_000259_001021_001705_004001_004385_007047_014593_063443_003283_018195,
  1_028350_000001_000001_000007_000009_000009_000055_000011_000113_000351_000513_000197_000873_001595_011331_027711_000419_073097_144357,
  1_028355_000001_000003_000007_000015_000029_000031_000037_000015_000233_000573_001457_000293_005437_015909_003087_024535_006507_173555,
  1_028367_000001_000001_000001_000007_000007_000047_000081_000241_000257_000389_000233_003275_000919_014911_014473_058457_078195_121421,
  1_028376_000001_000003_000007_000013_000001_000063_000009_000233_000231_000771_001851_003829_007089_004573_013297_058963_002065_008365,
  1_028379_000001_000001_000005_000001_000031_000045_000045_000209_000077_000977_000159_001521_000969_010115_032387_052821_124209_051841,
  1_028381_000001_000003_000005_000005_000013_000027_000053_000171_000091_000743_000217_003805_007721_015127_020679_057459_053649_016381,
  1_028447_000001_000003_000001_000015_000023_000043_000105_000169_000143_000759_000463_001237_003311_002919_016675_053049_012403_153651,
  1_028465_000001_000003_000003_000011_000005_000027_000001_000135_000017_000683_000679_002591_002929_012417_018379_061903_081991_025231,
  1_028471_000001_000001_000001_000005_000013_000059_000073_000119_000369_000445_000553_000243_007523_001105_020349_008417_087535_148857,
  1_028472_000001_000003_000007_000015_000029_000003_000049_000049_000007_000753_001597_001427_007485_009119_017427_024961_114897_062841,
  1_028478_000001_000001_000007_000007_000017_000035_000049_000225_000267_000801_001359_002131_006093_003859_011305_006287_106459_031093,
  1_028480_000001_000001_000005_000003_000001_000045_000019_000089_000145_000023_001071_003053_003463_006781_008635_001961_054403_183401,
  1_028489_000001_000003_000001_000013_000017_000035_000105_000155_000145_000597_001169_003731_000725_002185_023365_031849_113717_185413,
  1_028514_000001_000003_000003_000005_000003_000005_000013_000119_000039_000383_001595_000063_007003_006465_019847_037213_042921_254479,
  1_028525_000001_000003_000003_000001_000003_000033_000043_000255_000227_000151_001911_002657_006529_003855_024411_008485_030385_193265,
  1_028537_000001_000001_000007_000007_000021_000053_000101_000037_000193_000107_001095_000369_006423_003491_001219_053385_031041_122587,
  1_028550_000001_000001_000007_000003_000013_000039_000101_000109_000113_000201_000619_002489_004545_005017_025519_044281_128605_128595,
  1_028559_000001_000001_000003_000013_000025_000007_000099_000141_000465_000625_000667_001633_006719_016195_000365_034355_065025_128025,
  1_028595_000001_000001_000001_000007_000015_000051_000043_000159_000223_000493_000411_000065_005753_010219_021885_033267_116643_076777,
  1_028601_000001_000003_000005_000013_000025_000039_000097_000031_000245_000367_000685_000103_004093_010449_003849_052659_063355_262059,
  1_028629_000001_000003_000003_000001_000009_000049_000025_000157_000107_000821_000265_002939_006365_007539_017935_050147_088907_214317,
  1_028657_000001_000001_000001_000013_000017_000005_000055_000217_000137_000915_000121_003187_003111_007145_030477_020023_071969_179417,
  1_028667_000001_000001_000001_000005_000007_000015_000047_000071_000197_000725_000523_002207_005729_000741_008595_039125_025431_101093,
  1_028711_000001_000003_000001_000007_000019_000037_000117_000235_000353_000459_000207_000953_004955_014979_022897_053911_007783_203667,
  1_028718_000001_000001_000005_000013_000009_000017_000021_000095_000037_000751_001463_002491_000791_001569_032055_061415_113885_259285,
  1_028730_000001_000001_000003_000011_000001_000023_000005_000073_000061_000719_000215_000469_003267_012003_016535_046913_058321_002407,
  1_028732_000001_000001_000005_000011_000005_000009_000081_000001_000275_000877_000791_001591_002109_009983_029085_015069_044757_017887,
  1_028777_000001_000003_000007_000011_000023_000047_000121_000053_000055_000677_001239_002591_000579_011321_014231_053701_071947_056793,
  1_028801_000001_000001_000005_000001_000007_000031_000039_000205_000231_000843_000159_002301_007765_003317_008935_060647_110545_142543,
  1_028822_000001_000003_000003_000011_000025_000039_000009_000131_000145_000373_000041_001687_000417_009427_008657_018315_018505_144055,
  1_028855_000001_000003_000007_000003_000001_000051_000061_000223_000409_000607_001281_001767_004719_010741_021537_017307_005473_076127,
  1_028859_000001_000001_000001_000001_000001_000043_000035_000157_000183_000835_001141_003235_001383_011381_004503_020435_073125_196955,
  1_028869_000001_000001_000005_000007_000013_000047_000009_000191_000349_000587_001887_003667_000619_009443_028781_007759_006023_081595,
  1_028893_000001_000003_000005_000009_000031_000027_000077_000047_000375_000229_000989_001241_004937_005881_018797_021743_049947_246165,
  1_028904_000001_000001_000005_000001_000029_000023_000043_000237_000293_000391_000243_003471_005205_009951_029329_019873_114325_019239,
  1_028922_000001_000003_000003_000005_000019_000049_000023_000149_000419_000023_000021_000515_003321_003157_028559_008521_011119_192881]

def dirRows18_0_17 : List Nat := [
  1_028930_000001_000003_000001_000009_000029_000017_000015_000013_000171_000057_001849_003815_007361_007723_023657_060883_054953_159861,
  1_028949_000001_000001_000003_000005_000013_000057_000035_000227_000143_000725_002023_002583_002277_004721_004395_061479_112487_211861,
  1_028972_000001_000001_000005_000007_000007_000025_000083_000095_000281_000931_000415_001661_001543_005313_013317_021203_023965_060891,
  1_029002_000001_000003_000003_000001_000025_000051_000065_000147_000007_000521_000235_002165_006219_014247_030621_043245_008133_049481,
  1_029009_000001_000001_000005_000011_000013_000027_000039_000051_000213_000811_000151_001157_007821_006481_032097_012319_052005_033291,
  1_029061_000001_000001_000001_000013_000019_000015_000039_000205_000481_000253_001643_002969_003181_013995_029877_001307_101721_119111,
  1_029068_000001_000001_000001_000011_000005_000063_000057_000053_000187_000315_001521_000847_005955_003179_021459_025937_083215_181599,
  1_029107_000001_000001_000007_000013_000017_000035_000113_000073_000105_000497_001183_003397_004443_014697_029201_040737_040943_003529,
  1_029119_000001_000003_000005_000005_000003_000053_000101_000125_000173_000137_000333_000381_001143_001165_000789_050013_023595_050235,
  1_029142_000001_000001_000003_000001_000023_000003_000021_000143_000475_000337_001693_002341_006509_004167_021031_013887_083191_085187,
  1_029146_000001_000001_000003_000001_000029_000059_000039_000217_000077_000943_001531_000383_006535_002593_008601_061865_026629_057313,
  1_029152_000001_000003_000005_000015_000017_000015_000019_000031_000273_000507_001193_002501_004677_013355_005287_001155_102959_185219,
  1_029200_000001_000001_000001_000009_000003_000003_000005_000111_000159_000913_000331_000303_003673_012227_005245_063749_107123_026315,
  1_029206_000001_000003_000005_000011_000013_000013_000115_000237_000481_000793_001783_001107_004811_003965_029571_063237_015013_176925,
  1_029245_000001_000001_000007_000001_000013_000057_000085_000015_000019_000889_001637_001721_006299_006659_005541_024365_038363_067749,
  1_029254_000001_000001_000003_000001_000009_000039_000015_000183_000133_000821_001361_002617_007197_008251_012599_060549_042947_072519,
  1_029258_000001_000003_000001_000005_000019_000017_000069_000189_000309_000033_002003_000569_006189_007845_022351_014623_035287_160511,
  1_029260_000001_000001_000007_000013_000025_000003_000001_000203_000163_000661_000513_003513_000741_016259_029817_006059_023823_051869,
  1_029268_000001_000003_000003_000001_000009_000043_000059_000077_000465_000223_002007_002187_001499_009373_010535_022207_111689_108485,
  1_029281_000001_000001_000005_000015_000001_000021_000087_000163_000177_000751_000115_003981_004257_005345_031211_044075_016983_069783,
  1_029306_000001_000001_000001_000003_000029_000031_000007_000041_000181_000979_001661_001403_002577_000983_000545_006205_020183_044735,
  1_029317_000001_000003_000003_000015_000005_000001_000085_000243_000059_000161_001053_000803_001813_013583_002559_062761_105337_083209,
  1_029324_000001_000003_000003_000003_000005_000021_000101_000061_000379_000369_001865_003289_002643_000951_026493_017915_008185_042387,
  1_029342_000001_000003_000005_000015_000015_000013_000119_000103_000141_000735_001317_003345_002885_004145_030719_000965_010819_090295,
  1_029375_000001_000003_000007_000013_000015_000011_000019_000163_000495_000369_001285_000609_001559_009965_031123_055101_076743_104435,
  1_029384_000001_000001_000005_000001_000025_000005_000005_000139_000441_000447_000353_001369_000959_014593_030991_020651_126945_002219,
  1_029389_000001_000003_000005_000009_000021_000009_000113_000083_000115_000015_000161_001559_003095_001447_010253_051481_114541_248375,
  1_029411_000001_000003_000003_000001_000031_000061_000111_000069_000495_000195_001153_002605_005061_015509_008253_041909_126033_051173,
  1_029413_000001_000001_000007_000015_000015_000041_000121_000075_000471_000539_000341_000441_005357_011509_032525_065477_101251_164835,
  1_029446_000001_000001_000005_000007_000003_000063_000013_000123_000285_000499_001023_003533_000483_013747_026515_052381_009073_256319,
  1_029457_000001_000003_000001_000013_000029_000041_000075_000043_000229_000557_001775_001933_005567_011439_022045_010571_096761_098559,
  1_029458_000001_000001_000003_000011_000019_000039_000003_000093_000435_000433_002005_001561_000385_015865_019763_044105_048107_163063,
  1_029483_000001_000001_000007_000005_000029_000037_000053_000019_000335_000325_000133_002055_003029_014573_030395_038599_097637_203443,
  1_029488_000001_000001_000007_000015_000029_000051_000007_000145_000021_000955_001013_000579_004971_004849_011691_023725_071079_102641,
  1_029494_000001_000001_000007_000003_000009_000049_000079_000187_000237_000823_001951_002947_003633_009119_014393_052969_044703_222389,
  1_029506_000001_000003_000005_000011_000013_000009_000013_000245_000499_000661_001899_001313_006907_012259_004577_038547_079687_017555,
  1_029553_000001_000003_000003_000001_000005_000059_000123_000197_000293_000247_000687_000695_007493_003115_028535_044335_031905_081607,
  1_029569_000001_000003_000001_000003_000019_000005_000045_000101_000457_000395_000565_003155_008081_004863_001199_032133_073087_027025,
  1_029587_000001_000003_000007_000001_000031_000035_000111_000095_000379_000663_000731_001813_004551_013105_018275_019729_121971_139959,
  1_029590_000001_000001_000007_000003_000023_000047_000011_000117_000323_000943_000183_002169_004625_012931_001305_023345_119521_067911,
  1_029600_000001_000001_000001_000013_000019_000045_000037_000077_000301_000741_000747_000241_005865_011141_007961_010609_097833_256555,
  1_029612_000001_000001_000001_000011_000027_000021_000119_000103_000277_000761_000201_002063_001043_013303_006535_015553_057695_124187,
  1_029665_000001_000003_000007_000003_000001_000011_000079_000143_000345_000237_001421_000193_001889_002515_011729_000559_035227_009393,
  1_029722_000001_000003_000001_000001_000027_000027_000117_000159_000183_000871_000047_000989_000999_000303_030833_008229_116301_199439,
  1_029745_000001_000001_000001_000001_000031_000027_000041_000083_000435_000409_000999_002275_004489_001985_021455_023275_125039_192979,
  1_029746_000001_000003_000007_000003_000019_000049_000027_000185_000009_000385_000191_000735_003439_016307_021181_058749_128393_140383,
  1_029752_000001_000003_000007_000003_000015_000005_000065_000089_000011_000915_000673_000947_003847_006833_010095_034261_101645_042131,
  1_029775_000001_000003_000005_000011_000011_000025_000079_000225_000495_000951_001033_000005_000699_009621_001791_048221_059275_049875,
  1_029778_000001_000003_000007_000013_000029_000059_000105_000101_000233_000901_000863_000413_002087_016209_000445_027463_061465_121795,
  1_029800_000001_000001_000001_000011_000005_000019_000011_000051_000503_000313_000195_000003_007249_004919_011931_015569_118297_115989,
  1_029829_000001_000003_000003_000013_000013_000061_000063_000057_000429_000487_002033_000847_007539_001469_003197_001307_124557_211999,
  1_029830_000001_000003_000007_000013_000025_000027_000039_000103_000165_000039_001587_003103_001745_012593_010779_037105_029059_256739,
  1_029877_000001_000003_000003_000009_000025_000051_000105_000109_000099_000267_000623_001351_003837_000793_028609_052199_015621_077873,
  1_029881_000001_000001_000003_000007_000029_000061_000045_000237_000431_000791_000091_001259_008071_011103_027257_010153_018639_248949,
  1_029884_000001_000001_000001_000009_000015_000047_000113_000189_000291_000837_001317_002263_007183_006669_017241_035275_009087_241577,
  1_029895_000001_000001_000003_000001_000015_000059_000085_000021_000069_000569_001473_002735_000713_003817_014677_026897_075291_251255,
  1_029899_000001_000001_000001_000007_000017_000021_000105_000077_000367_000905_000513_001807_005571_014627_010349_047821_034395_051143,
  1_029916_000001_000003_000007_000013_000027_000019_000123_000145_000371_000857_001699_002231_000373_000781_028713_021441_064059_010689,
  1_029923_000001_000001_000001_000007_000019_000057_000081_000223_000087_000315_001253_000421_001371_001547_001411_006809_023889_213385,
  1_029935_000001_000003_000001_000005_000023_000057_000089_000015_000227_000965_001247_003861_007723_015621_007151_053961_047167_073679,
  1_029955_000001_000003_000007_000015_000031_000021_000009_000079_000087_000561_001001_003395_002095_015381_030725_048111_068031_121687,
  1_029962_000001_000003_000001_000009_000015_000029_000083_000087_000377_000331_002035_000093_002319_003637_004809_040091_093141_039881,
  1_029969_000001_000003_000003_000011_000021_000039_000027_000159_000161_000439_001417_000595_004873_015703_032743_056603_035881_160727,
  1_029997_000001_000001_000003_000005_000021_000037_000055_000159_000497_000425_000469_001185_005015_007045_007179_065325_097167_075723,
  1_030032_000001_000003_000001_000007_000031_000021_000125_000223_000479_000765_001115_000033_002765_012781_022923_036051_103749_033703,
  1_030041_000001_000001_000007_000001_000009_000003_000029_000125_000337_000973_000253_003179_003269_008801_019369_020693_017331_190295,
  1_030048_000001_000001_000003_000003_000013_000005_000115_000031_000481_000045_000855_000081_003663_010443_013853_029847_099471_249943,
  1_030060_000001_000001_000003_000007_000003_000001_000047_000031_000169_000625_000201_002257_004617_001633_026681_053793_078257_008955,
  1_030063_000001_000001_000005_000001_000023_000003_000095_000089_000429_000559_000119_002619_001235_007609_021905_045495_019461_189091,
  1_030105_000001_000003_000005_000005_000011_000033_000123_000045_000089_000899_001607_003717_006745_015199_022955_015891_050411_148201,
  1_030122_000001_000003_000005_000009_000019_000023_000087_000021_000039_000117_000603_000823_003015_014853_004341_049029_097183_218713,
  1_030141_000001_000001_000003_000007_000011_000055_000031_000255_000399_000861_000745_001013_004583_015871_032453_025357_090645_100835,
  1_030142_000001_000001_000001_000011_000013_000027_000057_000233_000045_000339_000305_003689_005273_011801_029109_044139_083171_250559,
  1_030153_000001_000003_000007_000013_000019_000001_000029_000113_000207_000313_001465_003563_002535_003307_014921_001923_031429_059815,
  1_030171_000001_000003_000001_000005_000029_000025_000059_000095_000177_000795_000353_003973_008029_001687_005045_016157_030361_218479,
  1_030192_000001_000003_000005_000003_000005_000027_000109_000239_000121_000347_000093_001645_003293_013181_023793_042935_098659_085385,
  1_030197_000001_000001_000007_000009_000009_000037_000127_000211_000077_000557_000177_002465_007895_005523_026665_023463_071715_126673,
  1_030223_000001_000003_000007_000001_000027_000055_000125_000085_000047_000739_001513_003763_005335_003135_011913_022405_090785_088845,
  1_030235_000001_000003_000003_000009_000029_000021_000123_000211_000491_000083_000697_000929_003507_007139_030569_016365_122657_077523,
  1_030241_000001_000003_000005_000005_000027_000021_000041_000129_000067_000503_000877_001893_006055_012709_024613_043831_124035_062631,
  1_030256_000001_000003_000003_000001_000021_000015_000059_000185_000405_000487_000627_003737_000345_014751_002947_015815_055047_207137,
  1_030291_000001_000001_000001_000009_000015_000029_000019_000155_000101_000405_000597_000329_002977_004333_005465_043863_006009_229481,
  1_030293_000001_000001_000001_000011_000007_000027_000093_000207_000043_000599_001899_003979_004219_010199_002901_034261_019435_058317,
  1_030300_000001_000001_000007_000015_000009_000047_000033_000209_000235_000655_000253_003507_003355_001685_007045_058907_041791_175835,
  1_030331_000001_000003_000003_000011_000011_000043_000021_000255_000045_000831_001051_001271_007945_009793_011125_017709_118267_169981,
  1_030349_000001_000003_000007_000013_000027_000037_000045_000221_000243_000037_001493_002773_006655_007451_022609_056559_012063_221143,
  1_030361_000001_000003_000001_000001_000009_000015_000097_000061_000241_000825_000735_003953_005331_016373_019403_028933_031881_111545,
  1_030367_000001_000001_000001_000015_000029_000001_000127_000111_000329_000741_001589_001653_005949_008703_027617_065285_122167_011895,
  1_030392_000001_000001_000003_000003_000017_000031_000091_000197_000421_000865_001901_000897_006917_015943_012823_015325_017011_110783,
  1_030405_000001_000001_000003_000015_000021_000057_000029_000179_000503_000929_001513_000205_006083_004015_032517_026921_054229_147789,
  1_030410_000001_000001_000007_000015_000027_000021_000095_000059_000193_000097_001235_000819_004435_000371_000627_024673_001775_261041,
  1_030415_000001_000001_000007_000015_000003_000037_000099_000085_000505_001011_000019_001241_005299_015661_027323_044625_012683_225687,
  1_030439_000001_000001_000007_000003_000025_000037_000111_000121_000217_000659_000365_002627_005499_012911_000951_054317_051927_235327,
  1_030446_000001_000001_000003_000009_000029_000031_000099_000195_000427_000735_001817_003675_004269_001579_012593_039285_074909_230613,
  1_030501_000001_000003_000001_000013_000007_000021_000037_000101_000111_000931_001581_000465_004753_015607_014515_029769_107711_032703,
  1_030526_000001_000001_000007_000015_000025_000057_000117_000119_000309_000345_000491_003647_002933_005409_015431_043731_025537_017269,
  1_030531_000001_000001_000005_000003_000015_000009_000083_000221_000501_000675_001441_000129_000213_005587_022361_016739_118845_192835,
  1_030537_000001_000003_000007_000013_000001_000031_000075_000023_000013_000447_000687_002711_007577_008275_005051_061835_022159_056477,
  1_030546_000001_000001_000003_000001_000023_000019_000111_000045_000395_000841_001665_000021_007435_012457_011065_020007_048785_015115,
  1_030568_000001_000003_000007_000007_000021_000003_000117_000035_000117_000433_000561_003045_002169_003255_018015_041093_099699_003479]

def dirRows18_0_18 : List Nat := [
  1_030581_000001_000001_000003_000007_000009_000059_000065_000143_000315_000063_000029_003817_001259_007119_020847_044407_080015_037851,
  1_030588_000001_000003_000007_000013_000013_000033_000085_000075_000039_000163_001759_001197_005971_008815_008745_045625_121873_246197,
  1_030598_000001_000001_000001_000013_000031_000041_000061_000007_000145_000113_000943_003757_002141_003523_022351_014143_107683_105579,
  1_030607_000001_000001_000005_000005_000023_000027_000075_000077_000025_000901_001295_003091_000981_010109_012649_015123_102433_145557,
  1_030609_000001_000001_000007_000005_000009_000011_000019_000229_000301_000835_001577_003365_000425_002271_015647_011685_057315_131043,
  1_030616_000001_000003_000001_000013_000031_000003_000113_000007_000473_000395_001979_000061_004205_002031_028007_034789_054463_094741,
  1_030626_000001_000001_000003_000005_000007_000013_000035_000151_000461_000621_000185_002645_000907_009151_025953_026363_105531_235555,
  1_030628_000001_000003_000003_000013_000021_000005_000043_000183_000149_000607_000509_000777_004089_016365_032201_060431_058773_092719,
  1_030638_000001_000003_000003_000011_000025_000053_000103_000203_000269_001017_000077_003537_004839_015991_029223_057397_122735_067299,
  1_030658_000001_000003_000003_000001_000029_000045_000085_000171_000307_000455_001399_002367_005991_005751_027957_036649_009251_038581,
  1_030663_000001_000001_000005_000013_000029_000015_000127_000001_000175_000921_000671_002469_003137_003679_032521_005321_092505_045901,
  1_030675_000001_000003_000003_000011_000023_000023_000113_000255_000443_000609_001085_000133_005369_000885_017043_020961_036137_260457,
  1_030698_000001_000003_000003_000009_000013_000055_000117_000019_000111_000323_000275_000495_006679_002217_012015_003053_032745_189413,
  1_030708_000001_000003_000005_000013_000031_000043_000037_000225_000067_000755_001427_003967_006497_009987_028145_050583_059457_213217,
  1_030712_000001_000003_000001_000015_000001_000005_000121_000249_000293_000695_001697_000313_000061_004037_011757_053739_005693_106225,
  1_030727_000001_000001_000007_000001_000023_000009_000111_000211_000303_000147_001291_003807_001969_004115_007473_050077_060745_041605,
  1_030736_000001_000003_000003_000015_000021_000051_000063_000171_000197_000403_001327_001851_006991_009069_019221_045765_055489_034853,
  1_030748_000001_000001_000005_000003_000005_000053_000087_000241_000255_000309_001319_003727_003189_010887_013401_032371_024479_170571,
  1_030758_000001_000001_000007_000011_000005_000005_000059_000177_000317_000835_000527_000165_002137_009597_030181_001779_075407_185827,
  1_030775_000001_000003_000003_000007_000025_000015_000015_000183_000235_000955_000027_002223_005587_011301_017653_056697_070787_198347,
  1_030793_000001_000003_000005_000005_000011_000063_000123_000041_000169_000975_001709_002965_007491_004183_015217_041343_036139_009649,
  1_030802_000001_000001_000003_000007_000005_000037_000087_000247_000379_000603_000781_000463_008063_013681_032005_043485_107401_042303,
  1_030820_000001_000003_000005_000009_000019_000053_000061_000219_000217_000361_000769_001687_005643_003145_012885_040303_086377_255051,
  1_030823_000001_000001_000007_000011_000015_000049_000127_000099_000127_000515_000647_001725_001605_002357_002069_031803_014179_180367,
  1_030827_000001_000003_000005_000015_000009_000007_000041_000003_000049_000485_001471_000207_006477_004463_012255_053481_110785_000909,
  1_030848_000001_000001_000005_000009_000023_000051_000107_000227_000205_000987_001525_002739_006761_012343_032311_012523_093351_029663,
  1_030893_000001_000003_000005_000011_000021_000019_000053_000169_000197_000021_000825_004029_006733_008943_013475_060677_031001_242291,
  1_030906_000001_000003_000007_000013_000009_000027_000087_000037_000265_000877_000735_002249_004801_002365_016923_040451_029693_222483,
  1_030950_000001_000001_000003_000009_000031_000061_000071_000103_000215_000421_000193_003451_006181_004271_030875_059573_080773_100369,
  1_030956_000001_000001_000003_000013_000017_000055_000073_000191_000233_000821_000961_001637_002393_003453_025959_005069_114585_186001,
  1_030996_000001_000001_000007_000005_000015_000027_000039_000023_000069_000811_000709_002349_006011_000803_012497_007387_062023_247875,
  1_031015_000001_000001_000005_000013_000029_000055_000051_000041_000121_000599_001633_003813_001913_003803_026097_053799_030997_261965,
  1_031016_000001_000001_000001_000011_000031_000025_000019_000195_000087_000657_001005_003853_000061_006585_024665_038283_005495_257201,
  1_031034_000001_000001_000001_000011_000023_000043_000091_000121_000049_000491_001443_001873_007689_015957_030463_064079_100003_000325,
  1_031099_000001_000001_000007_000001_000025_000051_000027_000105_000119_000233_000513_003403_002647_002847_012687_015619_071225_243759,
  1_031123_000001_000001_000007_000003_000017_000049_000019_000123_000307_000463_001619_001853_007019_002605_017351_007971_020675_235929,
  1_031145_000001_000001_000005_000003_000017_000029_000071_000215_000365_000955_001631_003549_001379_013881_025409_055703_029863_135401,
  1_031166_000001_000003_000007_000015_000003_000027_000107_000149_000065_000681_000505_003957_006697_011203_009321_063323_098587_199241,
  1_031168_000001_000001_000001_000013_000027_000041_000059_000223_000431_000339_001805_000899_000639_006559_013233_004773_037415_110477,
  1_031174_000001_000003_000007_000009_000001_000059_000079_000161_000311_000905_001755_003915_006259_008955_014187_011331_086185_209805,
  1_031216_000001_000001_000007_000009_000005_000027_000075_000093_000285_000089_000891_003341_001157_011219_008883_008093_068949_189643,
  1_031219_000001_000003_000001_000005_000001_000043_000097_000071_000067_000605_000739_001641_004415_004487_013437_012755_121595_055761,
  1_031238_000001_000001_000001_000003_000001_000013_000061_000077_000297_000507_001527_003585_004515_013913_007679_028461_061807_196517,
  1_031256_000001_000001_000001_000003_000021_000023_000101_000135_000059_000485_001601_003713_007409_000349_016543_018897_097253_149055,
  1_031304_000001_000001_000001_000013_000005_000037_000015_000037_000109_001005_000363_001925_002701_013169_017027_058453_027667_234027,
  1_031315_000001_000001_000007_000001_000001_000041_000067_000231_000143_000951_002023_003465_001717_000645_017353_009037_129127_199467,
  1_031324_000001_000001_000001_000011_000027_000029_000065_000139_000425_000947_000141_002601_007339_004451_025065_062691_062355_091819,
  1_031364_000001_000003_000007_000015_000029_000029_000093_000025_000139_000267_001319_003839_007295_011855_017775_030199_044127_150875,
  1_031379_000001_000003_000005_000001_000003_000055_000023_000191_000199_000583_001167_001357_006477_011827_015581_056541_016603_120139,
  1_031382_000001_000001_000001_000003_000005_000047_000103_000211_000443_000491_001043_004001_000121_001637_005685_042675_013009_022979,
  1_031412_000001_000001_000001_000009_000021_000007_000077_000017_000303_000955_000051_002389_003573_008817_028053_040269_035457_211023,
  1_031451_000001_000003_000005_000015_000003_000039_000017_000075_000223_000037_001231_002127_003575_009085_010715_041871_103703_154181,
  1_031487_000001_000003_000003_000015_000025_000031_000031_000223_000473_000267_001519_003205_007029_010753_024757_028187_117921_026783,
  1_031509_000001_000003_000007_000001_000005_000021_000105_000191_000055_000115_001813_003701_001673_004199_002441_019737_046913_208725,
  1_031510_000001_000001_000005_000005_000019_000063_000089_000141_000143_000783_000545_000883_002979_009219_024983_041793_088441_207095,
  1_031520_000001_000001_000001_000009_000021_000021_000093_000161_000093_000733_000417_003133_008155_012415_016343_011727_082877_094469,
  1_031535_000001_000001_000005_000015_000005_000039_000033_000203_000213_000731_001849_001675_006029_002743_001529_016345_013955_054929,
  1_031564_000001_000001_000007_000007_000023_000047_000121_000211_000271_000737_001015_001021_005641_012659_027545_052363_104761_150143,
  1_031585_000001_000003_000001_000011_000011_000051_000079_000141_000255_001007_000481_003221_007741_006861_024943_063091_046741_033359,
  1_031586_000001_000001_000003_000003_000027_000047_000085_000027_000423_000811_000075_003911_001951_010821_007487_018971_083355_197479,
  1_031600_000001_000001_000005_000005_000001_000063_000125_000251_000457_000795_000557_000217_002335_005659_018375_052183_009789_031417,
  1_031643_000001_000003_000003_000003_000019_000061_000041_000129_000345_000361_000187_003881_000043_007197_007673_025011_115155_016375,
  1_031646_000001_000003_000003_000007_000013_000007_000055_000091_000153_000341_002003_002013_006891_002411_014825_039555_050267_061405,
  1_031649_000001_000003_000005_000007_000013_000057_000021_000091_000331_000615_001297_002881_002011_001907_016489_043061_075731_076675,
  1_031650_000001_000001_000005_000005_000025_000015_000077_000175_000101_000885_000835_000529_002787_000547_020191_050457_058557_061807,
  1_031674_000001_000003_000007_000001_000013_000047_000101_000117_000179_000245_000861_000611_004377_005257_012807_026667_019889_112485,
  1_031679_000001_000003_000007_000001_000027_000003_000023_000109_000197_000187_000963_001827_005741_011921_006359_003989_108939_005761,
  1_031684_000001_000001_000007_000005_000027_000007_000119_000159_000053_000969_000557_000597_007821_007121_017341_011233_010811_023969,
  1_031688_000001_000001_000003_000013_000023_000055_000075_000131_000339_000917_000317_002645_005973_009939_026375_029261_080883_229897,
  1_031706_000001_000001_000005_000013_000003_000063_000041_000191_000315_000191_000649_002119_000317_014699_004097_019557_097015_124557,
  1_031735_000001_000003_000007_000015_000013_000029_000029_000043_000047_000037_000729_000185_004477_015091_013991_018701_056785_218823,
  1_031754_000001_000003_000007_000015_000031_000039_000017_000133_000469_000509_000995_001683_000391_001775_015431_063489_007405_122125,
  1_031761_000001_000003_000007_000005_000015_000063_000005_000235_000193_000411_001493_003967_003279_006421_013359_020949_068097_069469,
  1_031774_000001_000003_000003_000013_000007_000037_000007_000207_000399_000553_001629_001903_000329_007577_005813_017151_040889_174811,
  1_031807_000001_000003_000001_000013_000007_000039_000119_000109_000323_000061_000749_001377_000911_008195_019753_006265_060783_182339,
  1_031812_000001_000001_000005_000011_000003_000021_000089_000061_000243_000273_001317_003443_000117_006205_013907_012903_095485_103355,
  1_031821_000001_000003_000007_000013_000019_000027_000045_000251_000405_000289_000121_001501_002599_008111_005163_017437_075095_165847,
  1_031855_000001_000003_000003_000005_000023_000013_000029_000145_000333_000573_001939_002133_005797_005263_018835_011945_042161_103123,
  1_031919_000001_000003_000005_000013_000009_000031_000045_000017_000181_000111_000219_003451_001591_005823_020307_041207_077047_173401,
  1_031934_000001_000003_000001_000009_000019_000063_000073_000111_000377_000875_001749_002887_007035_014209_001805_020527_093839_225185,
  1_031956_000001_000003_000001_000009_000015_000045_000097_000235_000011_000803_000899_000427_003353_007363_026687_001307_005451_176233,
  1_031965_000001_000003_000007_000005_000007_000051_000059_000053_000003_000263_000159_001005_006079_007237_017419_056653_061091_182209,
  1_031975_000001_000001_000003_000015_000019_000047_000017_000185_000167_000219_000233_002921_005755_001277_027281_033671_003191_169477,
  1_031981_000001_000003_000007_000001_000025_000027_000099_000081_000057_000969_000821_002397_002947_005913_015247_047651_000449_183295,
  1_031999_000001_000003_000001_000015_000003_000063_000083_000075_000041_000959_001005_000153_000097_015381_006901_055141_090215_161321,
  1_032014_000001_000003_000001_000009_000001_000001_000029_000191_000043_000241_000607_000667_001189_004389_031335_014133_104049_100925,
  1_032022_000001_000001_000003_000001_000001_000061_000109_000023_000325_000027_001601_003957_007181_008375_009823_050533_114895_073825,
  1_032049_000001_000001_000007_000007_000001_000025_000051_000019_000383_000955_001717_002953_005431_007883_014451_018619_009601_153151,
  1_032055_000001_000003_000001_000005_000001_000001_000035_000003_000141_000037_001531_001855_007905_006509_006223_045911_054267_172275,
  1_032082_000001_000001_000003_000015_000023_000039_000109_000145_000215_000147_001191_002425_000301_005543_000997_031071_101697_169677,
  1_032087_000001_000001_000003_000005_000017_000023_000041_000191_000367_000967_001625_003669_000769_007599_000111_004399_064121_232275,
  1_032100_000001_000003_000005_000001_000025_000061_000047_000247_000413_000605_000399_001233_002789_009775_007111_042853_002305_087423,
  1_032104_000001_000003_000007_000003_000001_000025_000073_000247_000221_000235_000169_000889_005635_004325_027015_039549_107545_080885,
  1_032109_000001_000001_000007_000011_000015_000055_000061_000103_000179_000157_000481_003089_004539_000375_025425_014995_060119_031031,
  1_032138_000001_000003_000003_000001_000031_000017_000087_000123_000027_000309_001693_003871_007319_015615_020113_018239_086407_172381,
  1_032140_000001_000001_000001_000013_000017_000031_000083_000149_000451_000305_000847_000223_005705_009697_004967_034273_004041_252891,
  1_032148_000001_000003_000003_000015_000007_000027_000105_000207_000443_000825_000701_001159_005267_014085_028295_041757_047799_014835,
  1_032161_000001_000003_000007_000003_000001_000031_000077_000219_000139_000497_001575_000905_004341_004611_027861_059871_045525_021735,
  1_032162_000001_000003_000003_000003_000007_000017_000065_000183_000231_000955_001111_001899_001677_013685_029395_010449_062505_125643,
  1_032174_000001_000003_000005_000007_000027_000057_000081_000165_000279_000989_001569_000573_007593_010067_001343_012039_117175_225125]

def dirRows18_0_19 : List Nat := [
  1_032196_000001_000003_000003_000015_000019_000037_000047_000175_000087_000153_001137_001985_002473_014767_019587_041751_098937_066667,
  1_032220_000001_000003_000005_000003_000019_000051_000025_000155_000037_000597_000719_001039_000165_001871_015677_059891_029899_231979,
  1_032223_000001_000003_000005_000013_000015_000039_000017_000021_000073_000695_001813_002463_003549_003081_014037_013077_040417_258995,
  1_032267_000001_000001_000005_000009_000029_000005_000105_000075_000097_000937_001767_000975_000637_009419_030673_033537_000979_045381,
  1_032272_000001_000001_000005_000009_000003_000031_000091_000193_000171_000163_000925_003519_003621_004943_014093_022881_018459_110155,
  1_032308_000001_000001_000003_000007_000029_000001_000039_000107_000359_000805_000091_002911_004741_003099_016967_045849_095255_063225,
  1_032315_000001_000001_000005_000013_000025_000041_000049_000145_000345_000823_001571_000341_006323_009679_014855_019965_108367_099833,
  1_032317_000001_000003_000005_000003_000027_000035_000087_000083_000373_000425_000281_001313_005153_006301_002745_012677_034603_181835,
  1_032347_000001_000001_000007_000007_000013_000017_000083_000101_000141_000789_001403_002777_002749_001551_009009_009909_048443_176679,
  1_032360_000001_000003_000005_000009_000007_000025_000125_000109_000155_000357_001111_003057_000771_011253_025811_060333_068505_146987,
  1_032394_000001_000003_000007_000007_000029_000019_000069_000115_000411_000793_000051_000715_003035_011577_014237_023963_013915_196771,
  1_032411_000001_000001_000003_000003_000027_000037_000061_000163_000131_000749_000037_001333_000047_002519_025473_040851_055861_113961,
  1_032420_000001_000003_000005_000001_000003_000049_000019_000251_000125_000387_001887_003571_001465_004831_003859_043357_020859_225835,
  1_032423_000001_000003_000005_000009_000027_000053_000053_000143_000383_000781_000819_002921_003499_011551_018761_014453_058209_181763,
  1_032455_000001_000003_000007_000009_000017_000017_000079_000061_000145_000413_000541_000895_002077_006957_028681_044821_030609_131705,
  1_032456_000001_000001_000003_000015_000001_000057_000017_000125_000011_000043_001079_001023_005391_000067_031701_005737_000429_075411,
  1_032510_000001_000001_000007_000007_000021_000045_000065_000127_000447_000793_000161_000333_000637_007403_012861_030173_125121_254687,
  1_032517_000001_000001_000003_000009_000027_000053_000085_000223_000297_000455_000919_002371_007049_007167_018075_022815_010265_014765,
  1_032541_000001_000001_000003_000007_000001_000053_000091_000181_000471_000101_000771_004043_003039_001215_019289_015941_055187_147355,
  1_032552_000001_000003_000001_000001_000013_000019_000013_000047_000159_000965_001383_000297_004299_007181_001271_017057_114847_180883,
  1_032555_000001_000003_000001_000015_000029_000055_000113_000243_000215_000665_000641_001975_005907_002617_017077_043697_061101_070007,
  1_032580_000001_000003_000001_000011_000005_000055_000109_000145_000307_000663_001327_001247_008033_015425_018539_057027_072161_181655,
  1_032598_000001_000003_000005_000009_000025_000017_000003_000057_000007_000449_001049_003423_005769_012713_029849_001017_092579_131255,
  1_032654_000001_000001_000007_000013_000025_000013_000055_000217_000461_000595_000931_001883_002645_009625_020467_045825_072027_163767,
  1_032662_000001_000003_000005_000015_000029_000049_000023_000047_000045_000645_000973_003837_000621_007373_003585_016083_093823_184593,
  1_032665_000001_000003_000007_000011_000027_000019_000059_000125_000447_000033_000541_001067_006983_003779_027275_034269_106937_065085,
  1_032678_000001_000003_000001_000009_000023_000023_000051_000043_000475_000861_001759_002559_003059_001175_031555_027671_117653_162735,
  1_032682_000001_000001_000007_000013_000007_000061_000033_000049_000023_000737_000949_001785_002921_000873_026631_061941_014467_076225,
  1_032687_000001_000003_000007_000005_000031_000011_000049_000149_000007_000085_001929_001001_004185_000221_023719_052265_052973_067967,
  1_032692_000001_000003_000001_000013_000017_000031_000035_000191_000065_000527_000051_001093_003673_011167_029985_059739_043567_109817,
  1_032710_000001_000001_000001_000011_000023_000039_000095_000121_000501_000355_001043_000993_007533_015763_018399_031601_049373_243209,
  1_032791_000001_000001_000003_000003_000015_000037_000057_000183_000027_000981_000153_001481_000549_007847_002689_057401_046359_175401,
  1_032792_000001_000003_000005_000009_000031_000019_000083_000079_000413_000597_001957_003027_004751_001437_011255_039513_056927_166841,
  1_032813_000001_000003_000007_000005_000027_000061_000069_000065_000143_000321_001129_002521_004467_004369_011727_035643_080155_184241,
  1_032826_000001_000003_000007_000001_000025_000027_000107_000219_000481_000457_002027_001057_006409_005641_019711_011009_044295_028171,
  1_032831_000001_000003_000003_000009_000003_000017_000085_000005_000341_000107_002037_000093_000741_005279_020093_028637_080823_210279,
  1_032836_000001_000001_000007_000015_000005_000009_000033_000167_000451_000463_001951_002395_003821_002915_015195_034517_113545_022173,
  1_032843_000001_000001_000003_000001_000023_000055_000113_000159_000139_000795_000069_002021_006769_010807_018605_054161_039501_233797,
  1_032854_000001_000001_000007_000011_000017_000053_000103_000131_000385_000909_000629_003127_006117_011457_031115_008255_033227_170877,
  1_032893_000001_000001_000003_000009_000023_000019_000099_000221_000141_000731_000311_002617_002763_000375_026763_056473_006613_060519,
  1_032897_000001_000003_000001_000009_000007_000029_000015_000105_000243_000159_001755_003999_005861_012009_030111_048269_070427_187173,
  1_032912_000001_000001_000003_000013_000001_000035_000039_000121_000409_000571_001835_001535_004671_012671_004503_004783_048009_216837,
  1_032951_000001_000001_000001_000009_000025_000061_000087_000109_000489_000107_001741_000859_000237_007161_027117_058587_055445_155763,
  1_032963_000001_000001_000007_000015_000009_000021_000061_000159_000301_000863_001823_000011_000419_006717_028199_024129_058419_022147,
  1_032970_000001_000003_000001_000005_000009_000007_000013_000205_000185_000759_000777_002877_005991_014555_018793_051485_006373_232105,
  1_032975_000001_000001_000003_000005_000007_000025_000051_000079_000227_000447_000867_002709_002677_015249_022957_045577_039011_016839,
  1_033028_000001_000001_000001_000003_000005_000051_000069_000135_000395_000339_000685_003657_003789_016345_002911_051737_097471_126605,
  1_033052_000001_000003_000007_000015_000015_000005_000085_000153_000507_000347_001457_000527_001055_007773_004161_010487_092373_256535,
  1_033061_000001_000003_000003_000003_000001_000009_000025_000001_000155_000321_001739_000555_007719_010501_019075_012529_075975_229905,
  1_033083_000001_000001_000001_000003_000029_000031_000089_000023_000283_000875_001653_000855_007613_015277_023845_047443_000287_217441,
  1_033103_000001_000003_000003_000001_000025_000007_000075_000119_000493_000131_000231_003063_007171_005437_016385_050347_087427_053603,
  1_033117_000001_000003_000007_000007_000027_000055_000103_000223_000219_000103_000733_001233_001931_002119_019333_059839_100421_256811,
  1_033139_000001_000003_000007_000015_000023_000063_000077_000151_000285_000701_001403_001267_006975_011421_024943_051647_075651_191675,
  1_033151_000001_000001_000005_000007_000025_000023_000025_000007_000503_000759_000997_001711_001439_012483_030117_055205_008813_221589,
  1_033162_000001_000003_000007_000005_000021_000003_000117_000065_000461_000851_000915_000575_003061_001055_011999_008375_128677_098005,
  1_033209_000001_000003_000007_000007_000019_000013_000123_000023_000041_000293_000079_001435_001175_007399_014907_004671_088029_220627,
  1_033210_000001_000003_000003_000013_000011_000017_000065_000021_000143_000257_001001_002423_005659_011681_023605_040649_049797_055497,
  1_033223_000001_000003_000005_000005_000029_000015_000125_000083_000139_000381_001435_002129_001699_010725_000531_000767_112477_134223,
  1_033227_000001_000003_000007_000009_000009_000023_000035_000001_000127_000143_000707_001475_004705_008921_014919_050909_064425_033381,
  1_033241_000001_000001_000001_000015_000011_000063_000087_000101_000243_000833_000707_004095_000201_004877_010219_039019_129779_229857,
  1_033263_000001_000001_000001_000011_000005_000009_000035_000177_000303_000545_000917_001037_001789_012147_029095_027391_112833_104713,
  1_033341_000001_000001_000001_000005_000027_000023_000111_000219_000439_000445_000967_003527_006203_001829_019657_048965_085213_058719,
  1_033344_000001_000003_000007_000011_000015_000007_000095_000113_000317_000225_001229_003033_005777_004075_024093_003539_019333_212757,
  1_033356_000001_000003_000007_000007_000001_000035_000035_000067_000459_000769_001675_003509_007393_010433_012003_007385_004425_188989,
  1_033390_000001_000001_000007_000009_000005_000045_000035_000027_000443_000301_000533_002803_000099_000017_020749_058353_093067_118763,
  1_033398_000001_000001_000003_000003_000013_000051_000061_000181_000081_000859_001461_003455_002277_013769_001251_004313_119973_030693,
  1_033423_000001_000001_000003_000007_000015_000029_000023_000207_000239_000065_001889_000151_007793_002657_013673_029033_074477_215027,
  1_033428_000001_000001_000005_000001_000019_000035_000019_000071_000187_000783_000543_000505_000347_003191_001087_049735_054109_027979,
  1_033444_000001_000003_000003_000003_000003_000061_000067_000059_000207_000957_001709_001567_007973_005921_029841_008311_081165_091965,
  1_033454_000001_000001_000001_000007_000023_000047_000109_000189_000447_000861_001615_003283_003059_000749_028729_008713_038743_211019,
  1_033479_000001_000003_000005_000001_000017_000051_000127_000181_000355_000515_000603_000465_001825_009281_031971_042793_022467_175777,
  1_033510_000001_000003_000001_000005_000003_000029_000111_000091_000099_000015_000535_003047_001083_007181_028003_060719_071825_012293,
  1_033514_000001_000003_000005_000007_000001_000043_000083_000117_000221_000353_000139_000647_006017_004655_031823_022097_118537_071803,
  1_033528_000001_000001_000003_000003_000027_000011_000035_000169_000215_000883_001195_002983_004651_015893_024051_000313_103947_005227,
  1_033548_000001_000003_000005_000013_000003_000051_000033_000159_000499_000763_000845_001541_003837_009397_000855_004187_112167_243817,
  1_033566_000001_000001_000007_000009_000001_000015_000019_000239_000227_000561_001685_002841_000053_009753_015105_034277_128859_100085,
  1_033570_000001_000003_000005_000013_000015_000007_000057_000009_000415_001005_000583_001347_004349_003603_009125_015019_077735_237011,
  1_033593_000001_000001_000001_000013_000027_000021_000105_000017_000235_000605_001417_002053_003233_011617_028651_043161_071663_098373,
  1_033599_000001_000003_000005_000013_000029_000017_000123_000105_000477_000359_000613_001699_002581_003007_008507_014391_095487_000633,
  1_033619_000001_000001_000007_000007_000013_000055_000107_000211_000071_000339_001169_002629_000165_016207_025523_007101_047553_261131,
  1_033635_000001_000003_000005_000015_000011_000007_000045_000207_000039_000041_000781_003347_002529_004475_009665_031499_119837_128755,
  1_033659_000001_000003_000001_000015_000023_000059_000059_000017_000089_000823_000059_003991_000305_014893_001411_008015_092193_066935,
  1_033680_000001_000001_000007_000015_000019_000029_000011_000207_000429_000851_001661_002903_004413_000447_029447_039243_070435_160451,
  1_033699_000001_000001_000003_000013_000017_000005_000093_000089_000455_000067_000033_000065_007957_014383_028525_056983_071899_004881,
  1_033713_000001_000003_000003_000005_000011_000007_000047_000233_000433_000791_000047_002561_006539_001151_002083_012309_062353_069507,
  1_033758_000001_000003_000005_000011_000015_000055_000101_000251_000041_000039_000383_003481_001817_003447_006205_038169_098267_157091,
  1_033771_000001_000003_000005_000007_000009_000047_000113_000055_000421_000703_000849_002251_000129_009257_028097_033475_098933_032041,
  1_033779_000001_000003_000003_000011_000009_000059_000001_000211_000277_000969_000977_003079_004707_003341_017679_009469_052859_125883,
  1_033800_000001_000001_000007_000013_000029_000019_000049_000149_000259_000573_001137_002571_002661_012865_024993_010721_096921_085931,
  1_033829_000001_000003_000001_000009_000015_000027_000091_000127_000305_000159_000523_002539_001969_004325_000595_037077_079919_026889,
  1_033836_000001_000003_000001_000011_000001_000005_000065_000075_000317_000909_001601_002713_006891_004927_028427_005791_082285_035209,
  1_033844_000001_000003_000007_000007_000009_000005_000111_000167_000477_000437_001133_002715_006189_005051_004765_026267_099819_070419,
  1_033856_000001_000001_000003_000009_000027_000057_000023_000233_000423_000191_001159_001539_006397_016041_008803_019787_114447_017029,
  1_033859_000001_000001_000005_000001_000011_000003_000111_000125_000287_000487_001663_001953_003771_002011_018167_047471_094041_087569,
  1_033873_000001_000003_000001_000011_000005_000009_000075_000153_000037_000803_000971_001667_004631_009183_020179_006905_080949_054443,
  1_033874_000001_000001_000001_000005_000013_000029_000091_000201_000049_000739_001569_002725_000257_005505_005289_040731_027843_016565,
  1_033929_000001_000001_000007_000013_000027_000041_000081_000199_000099_000043_001331_003237_006493_003839_019329_044371_019715_060553,
  1_033944_000001_000001_000005_000007_000029_000041_000067_000163_000467_000093_001977_002625_006967_006655_019835_039517_010259_200487,
  1_033965_000001_000001_000003_000015_000023_000035_000031_000171_000175_000883_000593_000245_006209_007381_005555_054507_066159_040771,
  1_033978_000001_000003_000003_000011_000003_000063_000075_000177_000239_000077_001543_000875_007951_007571_000961_009909_101781_160399]

def dirRows18_0_20 : List Nat := [
  1_033986_000001_000003_000001_000003_000003_000037_000071_000231_000373_000443_000835_001321_002107_002929_007527_047969_015329_094537,
  1_034006_000001_000003_000003_000015_000007_000005_000127_000121_000159_000025_000399_003009_004401_009649_004311_018045_022557_135177,
  1_034025_000001_000001_000001_000003_000029_000057_000075_000073_000261_000493_001417_001351_003407_008553_004893_010325_123149_161435,
  1_034106_000001_000003_000003_000011_000015_000005_000087_000115_000337_000213_000949_001925_005057_005831_006837_051167_025291_182197,
  1_034126_000001_000003_000001_000011_000025_000049_000027_000101_000403_000989_001129_003933_001147_013091_011965_038075_068251_103293,
  1_034171_000001_000001_000007_000005_000007_000049_000001_000189_000275_000063_000149_003255_001175_007811_024845_020755_099391_140673,
  1_034189_000001_000003_000001_000013_000017_000035_000037_000037_000415_000125_000643_000443_006215_000299_031237_045687_078535_102123,
  1_034204_000001_000003_000005_000003_000027_000041_000085_000215_000047_000021_000725_001967_002317_000121_007827_048229_082027_060271,
  1_034260_000001_000003_000005_000001_000001_000055_000037_000183_000117_000421_000383_003883_005519_006161_006823_018423_077747_215969,
  1_034270_000001_000003_000005_000013_000031_000003_000117_000059_000375_000797_001129_001283_003245_012775_030353_003837_130273_228899,
  1_034280_000001_000003_000005_000001_000007_000033_000017_000153_000179_000255_000537_002911_001223_000367_018131_025903_033509_220031,
  1_034298_000001_000003_000007_000005_000005_000007_000103_000233_000309_000947_001835_003509_004267_015619_005895_030707_081841_191899,
  1_034313_000001_000001_000005_000011_000003_000015_000091_000083_000319_000765_000895_002565_006833_001719_002971_037483_021709_023193,
  1_034321_000001_000001_000003_000011_000031_000057_000083_000233_000439_000161_001503_000749_006347_015379_002317_024671_093399_239585,
  1_034333_000001_000001_000003_000009_000029_000045_000019_000107_000295_000153_000189_002521_005465_007321_006143_000229_100553_258911,
  1_034370_000001_000003_000007_000011_000031_000027_000095_000021_000249_000981_001725_001481_001025_009301_011809_053109_029007_127683,
  1_034376_000001_000003_000001_000003_000001_000023_000097_000137_000005_000471_001887_001035_002681_005143_003145_001517_088107_245245,
  1_034387_000001_000001_000001_000001_000015_000011_000013_000009_000405_000607_000403_001693_004363_009365_006425_048121_078969_087341,
  1_034389_000001_000001_000007_000015_000003_000017_000007_000051_000111_001023_000009_000465_001909_016283_004763_050939_119029_198257,
  1_034417_000001_000003_000003_000001_000031_000011_000113_000013_000499_000433_001941_000991_005439_003123_024591_016171_055099_206015,
  1_034429_000001_000003_000005_000015_000025_000049_000125_000101_000251_000619_001895_004063_003065_014965_020081_011233_058253_069633,
  1_034440_000001_000001_000001_000005_000021_000035_000029_000241_000359_000553_001001_001865_005183_005233_016371_055277_102091_143275,
  1_034443_000001_000001_000001_000003_000029_000037_000003_000191_000239_000961_002031_001337_001169_005229_022861_038257_055027_153703,
  1_034451_000001_000003_000005_000007_000007_000035_000049_000139_000509_000381_001267_002641_000747_016239_023133_032111_070471_128427,
  1_034470_000001_000001_000001_000009_000023_000025_000117_000125_000369_000891_000103_002215_003571_001291_009001_035671_067119_198847,
  1_034484_000001_000001_000005_000009_000017_000019_000027_000007_000207_000055_001099_002117_007511_014999_007761_032215_103401_068599,
  1_034493_000001_000001_000007_000009_000001_000059_000041_000091_000009_000225_000457_003241_004713_002923_011973_002867_130583_202007,
  1_034496_000001_000003_000001_000009_000031_000047_000063_000049_000457_000757_000885_000937_002973_012147_002607_052907_126047_083275,
  1_034514_000001_000003_000005_000011_000017_000001_000079_000123_000505_000203_001779_000071_004357_002285_031625_015225_086519_002021,
  1_034526_000001_000003_000001_000011_000021_000017_000041_000169_000125_000995_000351_001235_000025_007463_002099_018917_071355_026983,
  1_034535_000001_000001_000007_000001_000021_000023_000041_000005_000415_000405_001235_001245_000151_011283_025293_045147_012597_039501,
  1_034585_000001_000001_000001_000005_000029_000029_000015_000165_000259_000179_001479_003535_000779_006583_000885_034331_071193_154417,
  1_034591_000001_000001_000001_000005_000003_000001_000013_000181_000507_000339_000333_004059_007963_015649_015507_016913_034741_202039,
  1_034592_000001_000003_000007_000001_000001_000009_000017_000119_000077_000583_000259_000883_004011_004275_009599_058663_073237_202783,
  1_034602_000001_000001_000005_000011_000023_000027_000019_000171_000373_000779_000661_001701_003363_013095_000897_051233_001319_041093,
  1_034607_000001_000003_000003_000003_000029_000021_000105_000029_000429_000657_001735_001279_000809_014963_009735_023251_044879_159371,
  1_034644_000001_000001_000005_000011_000017_000027_000117_000065_000193_000539_001095_000439_001687_011277_000513_030611_088885_069145,
  1_034657_000001_000003_000001_000007_000011_000001_000027_000041_000063_000501_000917_002397_006839_010835_026437_056169_046631_064095,
  1_034675_000001_000001_000007_000015_000029_000005_000017_000217_000333_000389_000403_003167_003599_012055_030669_044821_109811_237393,
  1_034681_000001_000003_000005_000013_000001_000039_000051_000233_000159_000135_000763_002499_007741_013099_008639_008043_039827_005989,
  1_034693_000001_000001_000007_000003_000001_000061_000041_000037_000037_000067_000867_002631_006265_005551_000161_056643_126087_126829,
  1_034706_000001_000001_000007_000001_000021_000039_000101_000225_000489_000123_000661_002489_001865_006809_021663_059405_045579_051257,
  1_034745_000001_000003_000007_000009_000027_000053_000011_000097_000369_000389_001933_003321_000543_012331_011571_010685_049049_244027,
  1_034759_000001_000003_000005_000003_000007_000015_000021_000165_000181_000877_001161_001815_002097_000449_032411_022843_012467_055397,
  1_034765_000001_000003_000001_000003_000011_000045_000023_000193_000287_000137_000333_001831_000457_000583_023081_004525_004781_249509,
  1_034774_000001_000003_000005_000005_000015_000013_000027_000199_000267_000297_000923_003861_004949_007945_025291_045407_047529_127287,
  1_034780_000001_000001_000005_000007_000019_000029_000113_000051_000503_000487_000699_002097_002957_006519_019487_046873_038871_089997,
  1_034794_000001_000001_000005_000013_000017_000031_000057_000127_000335_000223_001545_003749_001539_003293_021159_013019_048343_190895,
  1_034807_000001_000001_000007_000009_000025_000019_000075_000041_000511_000269_000819_003313_006805_015051_004349_001809_034841_190641,
  1_034808_000001_000003_000005_000009_000027_000007_000091_000187_000123_000519_000477_002719_000211_001225_022689_037043_066291_205441,
  1_034835_000001_000001_000005_000013_000005_000041_000095_000049_000187_000239_001213_002363_008075_012423_006361_042471_070047_188063,
  1_034842_000001_000003_000007_000003_000027_000023_000021_000217_000065_000143_001171_001441_001603_002235_020923_032611_111903_132771,
  1_034865_000001_000001_000007_000009_000003_000029_000033_000203_000497_000179_001253_002083_007407_012551_008371_062167_093875_193017,
  1_034907_000001_000001_000001_000013_000007_000061_000043_000107_000417_000757_001701_003187_005489_011359_020469_020249_093581_207969,
  1_034928_000001_000001_000007_000003_000031_000051_000051_000183_000483_000885_001627_003605_006687_001271_027013_040409_103807_189805,
  1_034949_000001_000001_000003_000001_000021_000021_000107_000185_000267_000981_000147_001873_001085_015829_010315_021673_007713_120087,
  1_034961_000001_000001_000005_000003_000007_000027_000073_000131_000287_000657_001351_000547_003655_002433_006753_002465_110299_194587,
  1_034964_000001_000001_000007_000007_000017_000055_000029_000223_000411_000775_000745_003515_004573_004289_007411_055999_022021_110567,
  1_034987_000001_000003_000001_000003_000029_000055_000007_000183_000507_000773_001299_003653_007693_003773_029549_004171_123039_137495,
  1_034990_000001_000001_000001_000007_000005_000025_000053_000085_000041_000837_000587_002997_007281_006821_015609_047855_049017_108557,
  1_035019_000001_000001_000005_000005_000001_000017_000109_000231_000295_000825_001909_000683_002197_001895_008641_037917_036347_038683,
  1_035069_000001_000003_000007_000003_000023_000039_000091_000121_000223_000505_000127_003439_007779_012917_017351_033063_084019_040077,
  1_035077_000001_000003_000003_000001_000019_000001_000125_000099_000143_000549_000709_003605_002377_000761_014369_052191_080811_214877,
  1_035090_000001_000001_000007_000009_000013_000057_000039_000091_000505_000299_001241_001697_005821_005327_022439_042321_120941_040009,
  1_035152_000001_000001_000003_000013_000015_000059_000015_000129_000265_000841_001255_001915_004645_005991_026801_007839_066961_059045,
  1_035173_000001_000003_000007_000015_000017_000057_000061_000173_000391_001001_001815_002565_001445_013237_002273_061683_062327_180255,
  1_035174_000001_000001_000003_000003_000023_000029_000115_000185_000333_000103_001807_003271_004803_009743_003031_025263_030761_001899,
  1_035202_000001_000001_000001_000007_000001_000013_000063_000113_000467_000017_001803_003141_007069_008895_025823_040347_011211_088769,
  1_035214_000001_000003_000005_000001_000003_000003_000029_000101_000315_000915_000341_000287_004167_007579_019797_018287_019079_052805,
  1_035219_000001_000003_000007_000015_000031_000061_000027_000153_000387_000273_000343_000881_002273_006621_019391_041735_123899_117851,
  1_035226_000001_000001_000007_000011_000005_000049_000083_000223_000087_000341_001023_002785_003635_002651_005179_025907_115249_074001,
  1_035235_000001_000003_000003_000007_000031_000037_000123_000079_000365_000455_000639_000691_002659_012215_026785_048785_120175_155501,
  1_035255_000001_000003_000003_000011_000019_000049_000081_000097_000429_000317_000257_000663_005009_002855_022721_051553_032511_188977,
  1_035310_000001_000001_000007_000011_000005_000037_000001_000123_000477_000747_000839_003975_006347_000489_031387_056037_062935_177587,
  1_035318_000001_000001_000001_000001_000029_000007_000119_000233_000255_000025_000127_001377_000991_012151_031259_064863_034733_086101,
  1_035321_000001_000003_000007_000005_000019_000057_000067_000001_000081_000719_000891_002485_003817_001055_000437_009779_023823_173219,
  1_035333_000001_000001_000001_000005_000001_000063_000087_000163_000135_000809_000637_001233_005245_000481_011011_023477_114963_096051,
  1_035337_000001_000001_000007_000005_000025_000039_000057_000129_000311_000525_001555_000179_000639_004949_008809_031215_095975_079407,
  1_035346_000001_000003_000001_000001_000015_000059_000077_000087_000479_000889_001619_000331_004781_010597_000935_028105_083861_134273,
  1_035373_000001_000003_000005_000015_000021_000055_000061_000105_000373_000185_001579_003487_002621_008993_006443_031709_057329_128165,
  1_035414_000001_000003_000003_000003_000007_000021_000117_000159_000177_000927_001873_001865_003219_001693_001173_034365_107053_113949,
  1_035478_000001_000003_000007_000001_000017_000037_000035_000101_000305_000141_001681_001949_000047_011351_000989_013887_127429_013059,
  1_035497_000001_000001_000003_000007_000013_000041_000125_000115_000065_000621_001401_000631_005875_008589_017185_022757_083625_092907,
  1_035503_000001_000003_000001_000005_000025_000037_000073_000039_000495_000645_000265_002685_005875_005919_023223_044593_026207_049921,
  1_035512_000001_000003_000001_000013_000025_000031_000039_000015_000179_000791_001817_003617_002139_001827_021215_021767_015009_239443,
  1_035515_000001_000001_000003_000007_000017_000009_000033_000121_000235_000535_001537_003307_002881_004351_004721_034131_129619_137993,
  1_035526_000001_000001_000003_000001_000003_000051_000079_000213_000205_000323_001749_002563_002013_006519_018923_025937_074445_252283,
  1_035577_000001_000003_000005_000011_000003_000053_000017_000195_000305_000543_001937_002997_004593_007801_015307_046359_039365_059537,
  1_035585_000001_000001_000001_000013_000031_000053_000111_000163_000139_000163_000999_000083_005125_010047_011143_051407_013627_003621,
  1_035592_000001_000001_000003_000009_000005_000001_000125_000095_000281_000939_000913_001441_001209_012983_027759_022393_075985_178997,
  1_035615_000001_000003_000005_000003_000005_000027_000091_000041_000051_000447_000491_003405_000497_002873_017865_030651_104197_071751,
  1_035616_000001_000003_000007_000001_000029_000061_000073_000031_000423_000933_001327_000809_001461_000269_015121_018649_036095_139429,
  1_035622_000001_000001_000007_000007_000019_000049_000051_000173_000297_000411_001255_001093_002821_006743_001927_027563_068459_261411,
  1_035634_000001_000003_000005_000001_000005_000033_000027_000119_000103_000615_000149_002299_006801_015615_007361_031045_087719_009557,
  1_035657_000001_000001_000003_000009_000017_000023_000089_000035_000151_000385_000319_002065_001897_001987_015159_034855_005395_110751,
  1_035672_000001_000003_000001_000013_000007_000047_000019_000185_000207_000787_001179_001073_001463_006277_006129_025031_091969_123235,
  1_035708_000001_000001_000007_000003_000019_000063_000097_000001_000381_000071_001169_000339_006585_003629_031357_059451_102735_253667,
  1_035772_000001_000003_000003_000013_000009_000027_000069_000017_000509_000599_001247_002267_003309_001905_017995_041263_005947_051607,
  1_035790_000001_000003_000001_000009_000031_000045_000069_000243_000171_000555_000061_001135_001993_008615_018363_019545_064015_081391,
  1_035804_000001_000001_000001_000001_000019_000049_000031_000065_000053_000123_000271_003007_004509_009465_003855_012673_019457_014677]

def dirRows18_0_21 : List Nat := [
  1_035811_000001_000003_000005_000013_000029_000053_000091_000145_000115_000053_000839_001911_002887_006053_018437_042273_063093_070937,
  1_035814_000001_000001_000005_000005_000027_000013_000087_000175_000485_000699_000463_000811_004991_015303_023007_010021_059125_039997,
  1_035837_000001_000001_000005_000005_000027_000021_000089_000061_000109_000555_000953_002811_003015_003249_016085_064413_084605_177333,
  1_035846_000001_000001_000007_000003_000001_000029_000083_000143_000067_000577_000971_002339_006521_006341_027141_037149_099813_037579,
  1_035873_000001_000003_000003_000007_000023_000029_000117_000005_000287_000559_000667_002349_007481_000679_009633_040857_089841_098125,
  1_035883_000001_000001_000001_000003_000031_000031_000083_000117_000213_000213_000023_003803_005967_007759_019521_013229_062231_150687,
  1_035918_000001_000003_000007_000009_000001_000015_000037_000191_000019_000107_001723_003517_003477_003777_004359_045815_058661_033217,
  1_035920_000001_000001_000005_000001_000017_000003_000003_000255_000501_001021_001731_000481_006145_003475_003417_011847_092203_075109,
  1_035925_000001_000001_000005_000001_000001_000061_000089_000107_000503_000627_000931_001355_002067_012487_020665_061543_015501_103843,
  1_035926_000001_000001_000005_000009_000025_000017_000007_000255_000251_000939_000851_002241_000939_015331_029357_002485_080791_152601,
  1_035945_000001_000001_000005_000003_000013_000025_000035_000113_000083_000765_001317_001409_000369_002215_005659_003581_013925_108673,
  1_035956_000001_000001_000001_000001_000013_000013_000083_000027_000005_000563_000723_002733_003155_006567_024595_045569_037587_144401,
  1_036003_000001_000001_000001_000009_000031_000051_000073_000105_000299_000857_000669_000963_004115_014939_011669_046215_092707_149249,
  1_036023_000001_000001_000003_000005_000007_000041_000105_000213_000003_000999_000093_001497_006783_001559_020047_040761_088219_064769,
  1_036024_000001_000003_000001_000005_000013_000017_000079_000029_000453_000075_001095_000623_007401_004225_030467_060795_130045_154767,
  1_036059_000001_000001_000005_000003_000031_000059_000033_000129_000505_000277_001623_003531_006841_012903_007231_005801_092405_260195,
  1_036061_000001_000001_000003_000005_000027_000023_000063_000219_000225_000547_001163_001899_004191_009725_030077_030157_073395_038195,
  1_036072_000001_000001_000001_000011_000017_000027_000063_000127_000095_000205_001753_002023_006803_004355_028169_016691_025105_008969,
  1_036075_000001_000001_000005_000003_000023_000023_000089_000115_000231_000647_000513_003161_003175_005061_005797_035387_109827_019511,
  1_036103_000001_000003_000005_000005_000011_000009_000039_000251_000367_000253_002031_003909_001057_012545_025397_051571_091229_083721,
  1_036110_000001_000003_000005_000007_000005_000035_000057_000153_000111_000789_000177_002237_001333_013185_000993_022099_062113_211815,
  1_036131_000001_000001_000005_000015_000019_000037_000123_000221_000375_000605_000791_001663_007537_007193_020149_058077_113129_185493,
  1_036151_000001_000001_000001_000001_000001_000053_000117_000227_000441_000851_001171_004031_002313_002847_025533_031767_018197_153101,
  1_036160_000001_000001_000003_000003_000013_000009_000065_000225_000071_000763_001507_003795_004321_000399_012515_004527_089193_236161,
  1_036199_000001_000001_000003_000011_000021_000063_000073_000125_000369_000309_000953_003525_003925_013609_026061_021739_112867_112985,
  1_036223_000001_000001_000007_000001_000027_000025_000003_000129_000321_000193_001871_000233_000837_011163_014861_042721_072849_206739,
  1_036227_000001_000003_000007_000003_000005_000051_000043_000177_000167_000011_001297_001805_000515_006485_008253_000271_047435_252291,
  1_036234_000001_000003_000003_000003_000019_000047_000047_000047_000299_000101_001535_003593_004669_010367_019219_016579_085269_036115,
  1_036236_000001_000001_000007_000015_000007_000051_000053_000181_000379_000267_000985_003401_002189_010197_014183_000413_076797_024751,
  1_036284_000001_000001_000005_000007_000013_000027_000065_000119_000235_000131_001921_003411_001511_011221_030315_011799_127563_203533,
  1_036319_000001_000003_000001_000003_000013_000055_000101_000189_000483_000261_000467_000645_000417_006203_009221_019671_102331_259335,
  1_036332_000001_000001_000005_000015_000019_000007_000081_000001_000371_000119_001433_001211_000303_014393_027107_045295_109211_224661,
  1_036343_000001_000003_000007_000009_000019_000053_000031_000055_000103_000351_001511_000377_000981_006709_019553_053579_055043_170489,
  1_036373_000001_000003_000003_000015_000031_000049_000001_000251_000187_000073_000119_003041_005455_005355_022245_007735_014661_258447,
  1_036401_000001_000003_000007_000011_000013_000001_000061_000097_000179_000975_001653_003301_004303_002271_030171_063287_051271_021909,
  1_036413_000001_000001_000005_000011_000021_000045_000101_000131_000121_000881_001205_001849_004337_005687_031967_022559_098017_202557,
  1_036433_000001_000003_000003_000007_000001_000049_000011_000035_000141_000309_000651_003319_004313_003675_027699_049429_109805_167089,
  1_036459_000001_000001_000003_000013_000013_000015_000061_000251_000335_000365_000677_002183_006291_008857_015231_000551_063149_076729,
  1_036480_000001_000003_000003_000013_000001_000059_000085_000127_000409_001007_001947_003495_006227_011447_014329_003769_109619_059063,
  1_036485_000001_000003_000005_000011_000011_000059_000067_000209_000491_000757_001137_001977_003155_009339_011219_020303_066417_187911,
  1_036510_000001_000001_000005_000009_000027_000051_000087_000249_000327_000867_000029_003811_004769_012353_024803_035747_084101_210975,
  1_036513_000001_000003_000007_000007_000023_000037_000023_000055_000237_000543_000779_001305_001535_013333_001403_010903_113135_195799,
  1_036523_000001_000001_000003_000011_000001_000001_000003_000153_000401_000035_000981_000079_004227_009203_008179_029325_104809_140613,
  1_036528_000001_000003_000005_000009_000013_000039_000101_000181_000507_000307_001411_001443_006855_008747_022709_037869_102303_000577,
  1_036537_000001_000003_000005_000001_000025_000041_000003_000239_000195_000001_001277_002085_004253_014683_024171_056733_082795_213291,
  1_036558_000001_000001_000003_000005_000025_000055_000031_000055_000215_000149_001813_003775_000779_006137_010561_041671_096883_177435,
  1_036563_000001_000001_000005_000011_000015_000005_000001_000237_000131_000013_000229_003203_002431_001829_031983_059535_031381_175455,
  1_036576_000001_000003_000003_000007_000005_000019_000061_000253_000223_000609_001395_002495_005501_006571_012989_000889_049435_200251,
  1_036608_000001_000001_000007_000013_000025_000049_000033_000157_000457_000259_001935_002249_007419_012685_030509_032187_108839_178963,
  1_036611_000001_000003_000003_000015_000019_000027_000091_000133_000369_000931_000359_000759_002647_013643_014877_014031_115367_201745,
  1_036617_000001_000001_000005_000003_000009_000023_000087_000027_000203_000995_001759_000999_000949_002733_029053_046581_129003_042585,
  1_036653_000001_000001_000003_000001_000001_000021_000063_000243_000257_000741_000681_002471_002455_015145_031739_008751_015963_165405,
  1_036716_000001_000003_000003_000001_000025_000021_000069_000213_000219_000009_000199_000487_004103_000141_018177_058797_060415_006313,
  1_036721_000001_000003_000001_000005_000023_000043_000061_000121_000123_000089_000283_001313_002707_010199_007699_017437_130995_140327,
  1_036733_000001_000003_000005_000013_000031_000041_000111_000039_000403_000005_001125_002867_003143_007051_009891_043349_020751_088465,
  1_036761_000001_000001_000003_000001_000019_000053_000083_000207_000285_000789_001515_003455_004057_015777_027879_046971_122661_143407,
  1_036783_000001_000003_000003_000011_000025_000021_000127_000191_000313_000357_001625_001323_001151_012509_022275_023517_012221_258709,
  1_036786_000001_000001_000005_000007_000001_000047_000001_000107_000387_000965_001319_002911_002121_008595_000009_021587_081187_002803,
  1_036795_000001_000003_000003_000005_000019_000055_000037_000213_000023_000767_001493_000635_004289_002503_016835_047851_077335_060565,
  1_036800_000001_000001_000001_000007_000023_000009_000101_000145_000457_000691_001895_002145_007527_007687_020781_010957_024859_079137,
  1_036810_000001_000003_000007_000015_000009_000009_000015_000195_000493_000859_000687_001445_000429_008599_024591_040709_118361_148163,
  1_036812_000001_000001_000001_000003_000007_000051_000045_000143_000339_000475_001177_002829_000785_010141_004923_029135_022603_119973,
  1_036817_000001_000003_000005_000015_000025_000037_000001_000013_000351_000127_000143_002637_001215_014577_012465_010575_067997_021877,
  1_036818_000001_000003_000007_000003_000027_000019_000059_000241_000327_000307_000731_003471_006123_013607_008793_014825_110681_083259,
  1_036851_000001_000001_000001_000011_000025_000005_000059_000085_000335_000189_000499_001305_005801_007259_002397_014045_055585_258579,
  1_036853_000001_000001_000003_000005_000021_000049_000049_000063_000261_000657_001453_000055_001325_015513_014891_060689_015381_252641,
  1_036868_000001_000001_000007_000015_000025_000003_000085_000033_000495_000867_000903_001813_002871_000365_017399_045695_102851_225873,
  1_036889_000001_000001_000001_000013_000013_000063_000029_000035_000325_000893_001313_000133_008169_007791_009271_036759_092275_169717,
  1_036890_000001_000001_000007_000003_000021_000045_000007_000151_000387_000891_001921_001701_000307_005323_016321_051229_079369_021513,
  1_036896_000001_000001_000001_000011_000007_000027_000017_000075_000161_000649_000337_001731_002905_004589_017387_010455_070673_228373,
  1_036905_000001_000001_000003_000015_000017_000035_000045_000131_000469_000629_001771_001965_005065_006249_029041_052791_055619_154531,
  1_036919_000001_000001_000007_000003_000025_000053_000085_000233_000161_000163_001155_003159_001551_013099_025647_026777_091647_162755,
  1_036938_000001_000001_000003_000009_000017_000011_000039_000063_000503_000927_001621_003425_004835_007083_016449_047913_127905_165567,
  1_036946_000001_000001_000007_000001_000029_000009_000001_000111_000285_001009_001427_003071_000205_012269_031337_014501_010923_014277,
  1_036951_000001_000001_000005_000005_000001_000003_000051_000205_000477_000661_001555_002113_006487_004755_013633_016391_035775_052623,
  1_036952_000001_000003_000003_000003_000027_000023_000109_000049_000071_000019_000733_001361_004369_014527_020443_010507_120183_246115,
  1_036964_000001_000003_000003_000005_000007_000047_000051_000197_000097_000471_001631_003317_005857_009405_030359_007741_045079_175929,
  1_036968_000001_000001_000003_000003_000013_000063_000039_000173_000511_000525_001687_001735_006877_007383_027971_026503_006189_232251,
  1_036979_000001_000001_000005_000003_000005_000031_000101_000099_000051_000987_001627_003899_006321_009441_004983_064001_030923_199495,
  1_036981_000001_000003_000001_000001_000011_000039_000119_000123_000033_001017_001477_000283_004939_000453_016445_025599_106857_257811,
  1_037021_000001_000003_000001_000011_000013_000001_000003_000101_000275_000075_001795_001449_002503_011765_019299_014237_000157_244825,
  1_037026_000001_000003_000007_000015_000023_000001_000085_000065_000055_000103_001523_001443_001021_005733_003297_010889_022487_082503,
  1_037075_000001_000001_000007_000003_000017_000059_000109_000113_000017_000173_001709_000273_005327_003243_010751_058361_042303_078391,
  1_037077_000001_000001_000005_000015_000025_000011_000101_000133_000193_000131_001671_003045_007111_014331_015665_056407_031561_154555,
  1_037108_000001_000003_000003_000005_000015_000041_000105_000065_000081_000293_000389_002653_001883_014741_023553_033349_039665_154233,
  1_037112_000001_000001_000005_000015_000031_000019_000121_000041_000261_000511_001679_000957_001647_012647_012285_030291_122483_187911,
  1_037150_000001_000003_000001_000005_000027_000025_000017_000045_000303_000947_001123_002729_000281_012389_027987_042667_016089_017129,
  1_037154_000001_000003_000007_000015_000013_000017_000025_000223_000125_000837_000159_000253_002599_011381_000639_032545_050633_139025,
  1_037156_000001_000003_000001_000013_000023_000043_000025_000083_000507_000047_000099_000697_004453_002139_017151_050709_037099_212957,
  1_037163_000001_000001_000007_000007_000029_000007_000063_000141_000475_000853_001073_000143_006979_005663_029691_059489_089689_223047,
  1_037178_000001_000001_000001_000001_000013_000027_000101_000061_000027_000735_000207_002065_005811_005461_021493_015481_103727_080017,
  1_037183_000001_000003_000001_000011_000009_000009_000035_000251_000147_000841_001891_001909_005053_005103_011751_016209_110475_114875,
  1_037185_000001_000003_000003_000011_000013_000055_000117_000205_000071_000159_001797_000989_002221_016087_018287_008355_096403_146613,
  1_037191_000001_000001_000005_000005_000029_000025_000073_000063_000299_000839_001225_003583_005641_001341_029431_007035_099107_013493,
  1_037198_000001_000001_000003_000005_000027_000053_000009_000051_000079_000701_000667_001469_004455_013761_018607_039429_007687_201115,
  1_037203_000001_000003_000007_000011_000023_000035_000101_000129_000491_000369_000565_002557_002529_001003_016003_033873_052155_000861,
  1_037225_000001_000001_000001_000015_000027_000063_000001_000055_000331_000853_000899_001027_007389_008935_012559_027315_101753_255331,
  1_037243_000001_000003_000003_000015_000005_000041_000093_000039_000473_000887_001667_000847_007619_008407_006539_031989_063807_021861,
  1_037252_000001_000001_000005_000011_000027_000057_000073_000249_000331_000653_000021_002937_004403_016195_018785_030375_022939_235291,
  1_037262_000001_000001_000007_000001_000007_000041_000059_000161_000295_000503_000595_003021_000455_003991_008617_065361_107239_083205]

def dirRows18_0_22 : List Nat := [
  1_037264_000001_000003_000003_000015_000017_000041_000061_000229_000273_000687_000657_001969_002817_002367_029183_041199_024123_184081,
  1_037276_000001_000003_000007_000005_000025_000063_000043_000065_000443_000423_000549_002031_003353_007041_006563_018819_046047_239823,
  1_037327_000001_000003_000003_000003_000003_000017_000013_000115_000377_000623_001959_000127_005125_013209_024731_023151_021303_007213,
  1_037355_000001_000001_000007_000001_000021_000011_000021_000041_000491_000037_001759_002771_001301_012995_017621_030907_075511_082321,
  1_037403_000001_000003_000003_000013_000013_000023_000077_000211_000215_000711_000427_002213_008041_001595_026105_039051_105407_242141,
  1_037415_000001_000003_000003_000009_000013_000035_000117_000207_000075_000395_000723_003321_006643_002429_010043_010585_003529_064067,
  1_037422_000001_000001_000001_000007_000003_000001_000083_000093_000311_000157_000891_001717_007669_016067_011775_027693_011757_094471,
  1_037448_000001_000003_000003_000005_000017_000063_000023_000177_000289_000921_000315_003083_005903_008697_022425_037845_031171_049237,
  1_037451_000001_000001_000007_000009_000021_000063_000029_000227_000427_000271_000525_002071_007103_008389_029185_051601_110737_016949,
  1_037478_000001_000003_000003_000003_000003_000049_000025_000173_000079_000343_000509_001939_006389_015501_020135_054365_069931_135269,
  1_037484_000001_000001_000003_000003_000021_000023_000041_000071_000169_000947_001027_002345_003397_012181_015409_031725_041223_058837,
  1_037525_000001_000003_000007_000001_000019_000023_000057_000201_000027_000449_001479_000921_004703_010949_014369_027929_045399_046055,
  1_037553_000001_000001_000003_000009_000013_000017_000125_000017_000393_000295_000497_003089_006589_004003_008687_048145_002683_175521,
  1_037640_000001_000003_000003_000015_000015_000013_000003_000031_000051_000101_000973_000101_003709_013437_000051_014293_021561_136497,
  1_037645_000001_000001_000005_000011_000017_000027_000051_000045_000077_000539_000225_002029_000533_000153_026085_033611_028153_075671,
  1_037658_000001_000001_000001_000015_000003_000059_000059_000123_000475_000225_001613_003121_002865_004647_014553_035449_121657_037457,
  1_037667_000001_000001_000005_000001_000027_000033_000121_000225_000057_000619_001293_003813_002121_003525_021995_047253_033095_257451,
  1_037708_000001_000003_000001_000011_000011_000043_000115_000233_000335_000185_000989_003567_004135_002357_020559_043325_043015_051695,
  1_037723_000001_000001_000005_000009_000011_000049_000045_000187_000093_000967_001609_002511_001549_004045_021309_016341_013495_214827,
  1_037732_000001_000001_000001_000013_000021_000023_000081_000007_000259_000483_001059_000773_005297_010123_009857_061187_047355_076307,
  1_037747_000001_000003_000007_000009_000029_000051_000113_000255_000223_000853_001173_001019_001587_009629_022373_032731_125179_193271,
  1_037753_000001_000001_000005_000011_000003_000055_000025_000145_000347_000451_001447_003399_005873_011579_011107_064707_010161_142003,
  1_037772_000001_000001_000001_000007_000015_000049_000109_000093_000267_000919_000177_002247_008129_008039_015629_063767_098153_143255,
  1_037789_000001_000001_000005_000003_000003_000027_000047_000151_000231_000035_000155_002745_007349_006543_014117_019549_054927_010819,
  1_037817_000001_000003_000007_000015_000031_000029_000017_000203_000249_000169_001071_003069_006269_003455_027177_033761_111003_004527,
  1_037826_000001_000003_000001_000005_000031_000015_000065_000189_000003_000917_000857_001221_003553_002883_003631_032971_068057_109081,
  1_037831_000001_000003_000001_000009_000003_000055_000127_000057_000125_000463_000199_000317_003373_000967_005569_055997_017167_033585,
  1_037845_000001_000003_000005_000001_000009_000057_000015_000089_000335_000119_001445_001931_004177_002495_027507_008209_060003_029657,
  1_037855_000001_000003_000005_000007_000015_000043_000083_000117_000283_000131_000653_000057_006789_007633_030525_064131_101981_122017,
  1_037859_000001_000003_000007_000011_000003_000017_000115_000217_000391_000825_001633_000885_007787_005595_012235_030233_053587_062985,
  1_037866_000001_000001_000005_000003_000005_000013_000099_000001_000075_000329_001247_000107_002337_004201_006217_012273_041585_046563,
  1_037880_000001_000003_000001_000015_000025_000053_000033_000125_000311_000955_000161_003631_000581_011915_004223_063207_016517_201665,
  1_037885_000001_000001_000005_000001_000027_000023_000093_000211_000483_000691_000949_001825_000391_012111_013639_061009_088503_104823,
  1_037897_000001_000003_000001_000013_000003_000009_000051_000133_000259_000977_000697_000661_007661_003987_008327_050155_112235_236135,
  1_037906_000001_000001_000003_000013_000007_000039_000121_000037_000151_000973_001275_002699_003345_007167_019245_055535_012305_033567,
  1_037948_000001_000001_000001_000001_000027_000005_000091_000063_000409_000579_000459_002335_004721_003305_011293_015405_074513_157863,
  1_037954_000001_000001_000005_000001_000021_000045_000055_000111_000475_000381_000659_001131_003575_005165_027221_046757_053587_090741,
  1_037978_000001_000001_000005_000015_000011_000031_000121_000209_000069_000389_000779_002833_004519_001801_004363_024723_105849_054475,
  1_037980_000001_000001_000003_000009_000007_000019_000011_000075_000275_000077_001997_001661_006139_013165_030653_049469_067053_003811,
  1_037990_000001_000001_000003_000009_000005_000011_000005_000151_000395_000715_001381_003011_005939_001805_008063_062877_099749_112951,
  1_038001_000001_000001_000005_000013_000019_000015_000113_000047_000455_000173_001897_000701_006093_002089_003977_020599_060947_023671,
  1_038020_000001_000001_000001_000013_000023_000019_000013_000117_000275_000313_001683_002975_000179_003949_004361_060211_091999_211219,
  1_038029_000001_000003_000005_000015_000013_000053_000083_000161_000491_001001_001773_001227_001965_014479_017677_024399_086431_203303,
  1_038047_000001_000001_000007_000015_000005_000051_000103_000131_000351_000747_001227_002859_006693_010615_029485_006619_106239_148739,
  1_038063_000001_000003_000005_000001_000009_000043_000091_000173_000223_000393_001181_003785_006589_001299_010217_020891_064125_063409,
  1_038077_000001_000001_000005_000007_000011_000023_000045_000057_000397_000771_000511_001849_000343_014139_026271_056241_052581_163187,
  1_038110_000001_000003_000007_000005_000015_000059_000089_000151_000255_000247_000291_000219_000995_010821_001445_035581_088767_016871,
  1_038116_000001_000001_000007_000011_000007_000025_000003_000175_000253_000193_001641_001669_007095_011871_010801_042567_120663_109347,
  1_038119_000001_000003_000005_000007_000031_000041_000119_000039_000149_000653_000153_002783_001377_005223_017915_003127_041869_193477,
  1_038176_000001_000003_000003_000013_000023_000019_000047_000085_000487_000103_000237_002363_004451_005077_023749_017011_073561_169165,
  1_038186_000001_000001_000003_000009_000021_000025_000077_000235_000053_000681_001463_002093_001525_012797_005469_054277_015587_068395,
  1_038194_000001_000001_000001_000015_000023_000063_000063_000225_000239_000143_001073_000199_003231_001371_011215_005999_100705_174681,
  1_038218_000001_000001_000001_000003_000017_000025_000069_000179_000445_000695_000281_000379_008115_009443_013221_050669_037369_062151,
  1_038241_000001_000003_000003_000009_000011_000029_000021_000089_000441_000353_000401_001139_005003_008087_024457_050237_110993_117233,
  1_038247_000001_000003_000003_000001_000013_000045_000031_000249_000295_000149_000591_002071_003611_000931_016261_008239_082767_195665,
  1_038261_000001_000003_000003_000009_000019_000047_000069_000177_000493_000231_000431_001359_006867_007641_015661_025285_065477_212643,
  1_038268_000001_000003_000003_000013_000019_000063_000083_000153_000367_000407_000547_000661_007743_005473_002993_062937_033811_101313,
  1_038277_000001_000003_000005_000003_000029_000017_000019_000203_000079_000279_001333_001851_000051_009793_012955_017383_073437_121743,
  1_038287_000001_000001_000001_000011_000011_000043_000031_000187_000463_000827_001511_000225_000845_008963_001553_061269_122033_245633,
  1_038295_000001_000001_000003_000003_000031_000023_000009_000241_000377_000317_000655_002197_002461_013239_015649_007879_055085_129855,
  1_038299_000001_000003_000005_000007_000009_000037_000001_000191_000185_000145_001567_003423_001127_001991_010741_038407_022915_222845,
  1_038301_000001_000001_000005_000003_000027_000031_000011_000227_000307_000973_000745_001079_007479_010065_031389_019195_114775_246615,
  1_038305_000001_000003_000001_000011_000029_000027_000011_000083_000205_000399_001489_000739_000715_007955_016473_021127_062379_260399,
  1_038312_000001_000003_000003_000003_000025_000025_000123_000163_000399_000841_000963_002089_004949_013085_019831_015345_060377_164235,
  1_038315_000001_000001_000001_000009_000003_000021_000101_000105_000397_000023_001505_003201_000547_000295_023247_018823_115243_151073,
  1_038317_000001_000003_000007_000001_000031_000027_000111_000023_000205_000709_001625_003921_006225_011039_029549_051239_119003_133663,
  1_038343_000001_000003_000003_000011_000021_000049_000111_000195_000025_000833_001991_000563_007031_015429_005707_012351_032221_016599,
  1_038344_000001_000001_000005_000007_000005_000007_000039_000171_000039_000921_000385_002343_000625_015355_004923_036597_056901_148377,
  1_038350_000001_000001_000003_000015_000007_000043_000089_000217_000067_000271_000853_000147_006767_003183_000341_040769_116767_022351,
  1_038358_000001_000003_000005_000007_000007_000003_000105_000027_000183_000059_000953_004027_001277_010323_029437_056085_032677_198067,
  1_038364_000001_000001_000001_000015_000023_000029_000051_000209_000013_000177_001103_001723_002877_009199_025601_015537_008599_230819,
  1_038371_000001_000001_000007_000001_000029_000039_000041_000217_000467_000423_000431_002707_002017_011865_011989_012045_071349_006311,
  1_038373_000001_000001_000001_000013_000015_000025_000003_000055_000403_000833_001843_001159_001703_002221_015379_065027_018327_108881,
  1_038377_000001_000003_000007_000013_000003_000027_000013_000227_000215_000873_001073_001117_007941_013607_007571_006957_044991_239761,
  1_038392_000001_000003_000007_000011_000023_000001_000095_000235_000283_000977_001443_000161_005937_004351_030835_035569_057509_001835,
  1_038407_000001_000003_000003_000013_000011_000001_000085_000075_000261_000543_000009_000899_005821_005465_009771_053707_101003_219215,
  1_038408_000001_000003_000001_000007_000021_000049_000035_000019_000035_000759_001467_001423_006355_008415_000563_024157_121029_087309,
  1_038421_000001_000001_000007_000001_000009_000013_000065_000085_000209_000583_000387_001743_002665_012021_007525_027665_045885_135039,
  1_038438_000001_000001_000007_000011_000029_000041_000091_000017_000291_000211_001801_000493_000899_014491_001741_028971_035205_131417,
  1_038442_000001_000001_000005_000013_000023_000055_000119_000165_000061_000653_001375_003575_005081_007767_019963_061583_107149_240639,
  1_038464_000001_000003_000005_000015_000025_000003_000051_000027_000127_000259_000055_002221_003951_006243_015825_042881_037009_254401,
  1_038473_000001_000003_000005_000011_000025_000063_000013_000105_000111_000677_001545_002399_004419_010853_007213_017183_103411_067459,
  1_038484_000001_000001_000001_000011_000011_000031_000073_000125_000155_000545_001857_002749_006389_004083_016239_023651_068881_043455,
  1_038491_000001_000003_000007_000007_000021_000003_000117_000237_000431_000017_000687_002613_007483_003253_030511_053833_033077_157055,
  1_038510_000001_000001_000001_000001_000001_000057_000065_000097_000415_000477_001003_001415_001493_012993_030965_024809_001467_213021,
  1_038518_000001_000001_000003_000007_000025_000033_000045_000025_000511_000733_001077_002483_005899_014295_011631_050609_128989_045177,
  1_038531_000001_000001_000003_000003_000025_000017_000115_000031_000115_000191_000293_003991_003039_006751_016217_016517_021121_193641,
  1_038537_000001_000003_000003_000013_000025_000023_000007_000051_000363_000641_000333_002533_000605_001105_012941_004195_129571_013253,
  1_038538_000001_000003_000001_000011_000017_000021_000007_000205_000293_000159_000009_000441_003287_010247_002115_054099_128109_008137,
  1_038567_000001_000001_000007_000005_000021_000017_000043_000087_000117_000737_000149_003175_000343_008509_012147_022041_080037_023277,
  1_038594_000001_000003_000003_000001_000003_000007_000101_000245_000011_001003_000175_002323_007807_015611_005161_010277_037009_083231,
  1_038647_000001_000003_000001_000005_000013_000017_000113_000075_000315_000237_000077_000587_005409_002053_022551_015205_082545_018531,
  1_038651_000001_000003_000005_000011_000009_000057_000061_000117_000281_000111_000369_002411_001691_003391_005379_008237_087329_004253,
  1_038654_000001_000003_000003_000003_000019_000025_000101_000001_000495_000025_001317_002333_006183_012215_027879_056403_037169_071635,
  1_038686_000001_000001_000003_000005_000017_000063_000049_000127_000171_000405_001763_003697_000405_002233_004137_028787_108319_053133,
  1_038702_000001_000001_000005_000007_000023_000043_000087_000189_000097_000239_001459_002115_007517_007799_028957_037105_071835_199195,
  1_038751_000001_000003_000001_000003_000025_000025_000023_000061_000369_000717_001711_001103_007535_009871_000025_026849_055955_113389,
  1_038821_000001_000001_000001_000011_000025_000057_000033_000175_000127_000541_001031_002847_002069_004033_025593_010615_050097_122955,
  1_038825_000001_000003_000003_000013_000011_000027_000097_000171_000245_000033_000213_004069_000753_003535_011727_034941_100543_220789,
  1_038853_000001_000003_000003_000009_000003_000017_000013_000237_000477_000507_001751_003191_003385_013977_023355_057355_064341_037683]

def dirRows18_0_23 : List Nat := [
  1_038863_000001_000001_000007_000013_000013_000043_000007_000153_000209_000007_000063_000585_001715_013313_025355_046759_071893_029755,
  1_038882_000001_000003_000003_000003_000011_000023_000011_000147_000135_001011_001105_003931_003861_013589_032183_030727_037685_067123,
  1_038884_000001_000003_000007_000001_000011_000013_000025_000229_000147_000843_000329_003337_007559_013193_003011_031549_102461_046195,
  1_038932_000001_000001_000005_000011_000005_000047_000127_000089_000053_000663_000261_000541_007743_013037_009013_023079_081225_239875,
  1_038941_000001_000001_000007_000003_000005_000039_000015_000177_000357_000357_001959_001721_006703_011829_001195_042113_088699_244347,
  1_038952_000001_000001_000005_000015_000025_000019_000007_000003_000225_000773_001535_000099_006555_004105_019137_056155_109141_161015,
  1_038960_000001_000001_000005_000015_000005_000059_000041_000053_000203_000459_001063_003015_005397_001559_020835_057773_067687_206189,
  1_038980_000001_000003_000001_000011_000017_000025_000061_000221_000037_000809_001461_001961_007697_001777_023179_054761_007787_177737,
  1_038995_000001_000003_000007_000015_000027_000021_000049_000107_000353_000677_000461_000239_005871_001059_003011_032397_013149_103973,
  1_039004_000001_000001_000005_000003_000011_000053_000061_000239_000479_000913_000479_003435_004979_007931_016841_060077_026667_212601,
  1_039013_000001_000001_000003_000005_000003_000019_000043_000143_000353_000507_000871_002547_007321_006163_009425_062911_086153_239011,
  1_039017_000001_000001_000001_000003_000015_000007_000115_000043_000069_000299_001235_001511_003111_007465_000769_046981_127707_195839,
  1_039026_000001_000001_000001_000005_000023_000027_000019_000021_000273_000291_000953_003577_003147_003863_018625_053505_033699_123305,
  1_039056_000001_000003_000005_000009_000003_000011_000089_000027_000447_000119_000493_002605_008175_008837_027555_002319_099101_079121,
  1_039121_000001_000001_000007_000011_000001_000011_000077_000129_000097_000261_001241_003117_001627_005397_006495_052339_052711_206237,
  1_039124_000001_000003_000007_000009_000027_000057_000077_000147_000035_000845_001417_001615_006097_012559_010765_019027_091693_204339,
  1_039133_000001_000001_000003_000005_000025_000047_000017_000145_000007_000969_001981_000733_004303_007785_004241_039733_082569_078061,
  1_039157_000001_000001_000005_000001_000005_000047_000045_000111_000405_000943_001911_001613_003817_010483_017729_007201_088033_261701,
  1_039181_000001_000003_000003_000013_000009_000003_000087_000039_000277_000769_000057_002503_007803_011041_020945_019623_032617_110027,
  1_039187_000001_000001_000003_000003_000027_000057_000001_000103_000427_000935_001617_000665_000837_008001_013543_044771_064033_065239,
  1_039212_000001_000001_000005_000003_000013_000021_000031_000059_000225_000945_001825_001511_003273_003171_030347_021993_040203_143297,
  1_039223_000001_000003_000005_000007_000011_000003_000003_000217_000167_000885_000975_003249_007909_013621_018697_061021_031497_198033,
  1_039250_000001_000003_000005_000009_000011_000005_000087_000033_000117_000471_000267_000529_005879_013969_005731_052613_106411_074341,
  1_039265_000001_000001_000007_000011_000005_000031_000025_000055_000135_000779_000717_001953_007929_011011_006133_014099_106975_178337,
  1_039320_000001_000003_000001_000001_000029_000017_000125_000007_000445_000299_001897_003235_008189_014339_014725_063185_126751_088747,
  1_039330_000001_000001_000005_000003_000001_000011_000065_000161_000243_000605_001945_003141_006443_009703_013331_002239_006315_247595,
  1_039335_000001_000003_000001_000007_000015_000023_000083_000215_000331_000631_000453_000879_004109_004897_016535_055749_090799_147287,
  1_039353_000001_000003_000005_000013_000025_000001_000109_000205_000049_000471_001735_000973_001279_009917_018225_044921_098519_211541,
  1_039371_000001_000001_000005_000011_000029_000041_000113_000187_000075_000479_001633_000841_006259_008919_027751_025179_115369_166567,
  1_039385_000001_000003_000005_000011_000017_000031_000107_000041_000435_000647_000811_002937_005819_003483_003835_057033_053543_061973,
  1_039421_000001_000003_000003_000011_000015_000045_000033_000103_000505_000067_000463_001275_002449_015261_022867_025215_038793_189309,
  1_039432_000001_000001_000001_000005_000019_000045_000035_000173_000365_000039_001599_003623_002231_012141_019437_027053_015869_104719,
  1_039443_000001_000003_000007_000007_000009_000017_000087_000151_000249_000081_001109_001951_007475_001699_017847_064149_050285_242793,
  1_039450_000001_000003_000005_000013_000015_000051_000035_000105_000479_000763_001945_002349_002987_000621_000283_020411_065799_086517,
  1_039455_000001_000003_000003_000001_000019_000031_000049_000229_000249_000689_000737_004027_005405_015211_026785_039143_093163_190421,
  1_039468_000001_000003_000007_000005_000001_000021_000063_000097_000347_000073_000745_003455_002347_003821_031385_006545_091803_072895,
  1_039473_000001_000001_000001_000015_000023_000011_000107_000047_000183_000235_001985_003277_000933_008491_014423_024293_006783_162199,
  1_039488_000001_000003_000003_000009_000017_000003_000123_000059_000277_000773_001617_002979_001555_009753_010947_024745_089043_045185,
  1_039497_000001_000003_000007_000003_000025_000017_000079_000043_000311_000415_001045_001289_007451_011413_011319_037177_101327_147453,
  1_039521_000001_000003_000007_000007_000017_000045_000049_000033_000313_000613_001773_000773_000161_013579_001207_005681_120597_178639,
  1_039531_000001_000003_000005_000005_000017_000043_000065_000243_000287_000223_000253_000687_000887_014887_001077_053337_062381_043531,
  1_039542_000001_000003_000005_000001_000021_000003_000039_000149_000497_000939_001537_000437_005345_010321_025151_048785_049879_090945,
  1_039585_000001_000001_000007_000011_000001_000061_000113_000063_000285_000615_000343_002897_001939_007911_016387_010781_092769_027995,
  1_039605_000001_000001_000003_000003_000019_000029_000085_000227_000355_000857_000883_001853_005065_013795_005749_059107_057947_035775,
  1_039658_000001_000003_000005_000009_000023_000037_000119_000161_000023_000511_000081_000973_004769_010821_032607_061731_064907_099055,
  1_039677_000001_000003_000001_000003_000011_000017_000109_000241_000349_000887_001651_003865_002045_015893_004597_011557_053313_048489,
  1_039703_000001_000001_000005_000009_000031_000043_000049_000193_000171_000477_000363_000735_001379_008977_009759_056477_099495_170433,
  1_039726_000001_000001_000003_000007_000025_000025_000077_000031_000021_001001_001527_001725_006479_008927_011249_063969_086291_074391,
  1_039731_000001_000003_000005_000013_000001_000043_000027_000007_000507_000569_000251_002199_003895_007845_013641_001655_112949_119493,
  1_039745_000001_000003_000007_000015_000007_000001_000123_000027_000121_000261_000201_001469_004229_002933_025157_001919_127937_021607,
  1_039776_000001_000001_000003_000009_000029_000059_000047_000081_000293_000191_000401_000849_004355_001643_023533_008469_000389_097891,
  1_039796_000001_000003_000005_000005_000009_000055_000037_000175_000203_000179_000901_003473_001489_001009_024623_054895_008711_190271,
  1_039809_000001_000001_000007_000001_000013_000039_000049_000105_000385_000189_001079_002799_005901_002511_023199_058925_111727_131193,
  1_039833_000001_000001_000001_000007_000031_000063_000037_000181_000493_000745_001131_000223_008055_009507_026667_022163_026495_200945,
  1_039850_000001_000003_000007_000001_000025_000015_000127_000071_000445_000935_001439_001167_003751_000799_027253_046209_033413_038553,
  1_039869_000001_000003_000003_000011_000029_000035_000125_000077_000129_000851_000731_003259_004651_004137_020921_019779_119261_141507,
  1_039882_000001_000003_000001_000009_000011_000013_000031_000211_000087_000377_000547_000113_001071_007167_028377_052943_050669_156915,
  1_039906_000001_000001_000003_000007_000029_000055_000089_000215_000425_000513_000175_001145_006995_001929_014253_020563_118543_104403,
  1_039918_000001_000001_000001_000005_000023_000025_000001_000023_000175_000571_001597_003801_001411_001783_013045_037499_086831_139101,
  1_039929_000001_000003_000003_000013_000015_000019_000035_000139_000483_000017_001555_003431_003417_013695_015985_065243_096659_076027,
  1_039947_000001_000003_000007_000009_000023_000007_000017_000089_000033_000353_001999_002561_000331_015661_025757_063389_112913_131757,
  1_039985_000001_000003_000001_000011_000027_000059_000037_000075_000121_000429_001833_003243_002029_002601_005013_029433_123565_234803,
  1_039986_000001_000003_000001_000007_000031_000013_000033_000025_000459_000803_000267_001573_005579_004575_008125_007491_072681_239409,
  1_040023_000001_000001_000003_000007_000031_000043_000093_000191_000237_000075_001809_003257_004131_001983_029153_023205_038393_197859,
  1_040024_000001_000003_000005_000005_000017_000047_000017_000153_000499_000529_001515_001587_002951_012431_012787_013245_054117_082663,
  1_040039_000001_000001_000001_000013_000007_000023_000023_000007_000441_000991_000641_002713_000151_001863_006065_047381_060493_136325,
  1_040053_000001_000003_000003_000011_000011_000015_000031_000137_000285_000439_000835_003033_006083_007883_003405_035803_065059_150143,
  1_040079_000001_000001_000007_000003_000019_000047_000061_000163_000313_000813_001315_002995_002805_014397_006589_062123_046229_206697,
  1_040084_000001_000003_000005_000005_000027_000051_000025_000099_000241_000571_001411_001191_007095_008639_029195_053733_053219_042851,
  1_040087_000001_000003_000001_000005_000011_000029_000001_000049_000061_000149_001931_000029_007163_003717_000525_042375_071451_008345,
  1_040094_000001_000003_000003_000003_000013_000019_000097_000249_000265_000509_001347_003081_006535_007941_031565_059897_091909_171789,
  1_040100_000001_000003_000003_000001_000025_000017_000075_000169_000251_000607_000073_000549_001397_010661_001743_009615_041327_243207,
  1_040112_000001_000003_000001_000011_000007_000007_000015_000181_000385_000883_000651_002939_005457_015309_009807_022221_072893_146331,
  1_040129_000001_000003_000003_000005_000007_000007_000053_000075_000139_000459_001861_000917_004101_010379_018555_012633_070023_254761,
  1_040132_000001_000003_000003_000001_000017_000051_000005_000109_000471_000003_001555_003731_006711_009791_000063_061931_075269_138697,
  1_040142_000001_000001_000007_000015_000011_000001_000053_000141_000423_000567_001937_000849_005657_007437_032657_016253_115219_106027,
  1_040154_000001_000003_000005_000001_000017_000029_000065_000213_000443_000541_000697_003859_001463_016081_023299_007645_019475_077857,
  1_040177_000001_000001_000007_000003_000021_000043_000099_000101_000329_000755_001123_001277_001381_007017_021763_028243_109995_178377,
  1_040178_000001_000003_000005_000007_000009_000031_000103_000123_000043_000895_001925_003383_003539_013669_000873_057361_045281_256517,
  1_040202_000001_000001_000001_000013_000001_000037_000115_000055_000415_000703_001217_000939_001145_004015_007233_044799_079711_164725,
  1_040219_000001_000001_000007_000001_000029_000017_000101_000015_000205_000281_001059_000301_000753_011953_010533_031881_067741_012683,
  1_040303_000001_000001_000007_000013_000009_000023_000031_000237_000181_000813_001765_002237_004897_009955_002139_013113_123423_227629,
  1_040305_000001_000001_000007_000015_000027_000057_000037_000075_000405_000185_001671_002245_007151_010531_013161_015695_107547_047689,
  1_040311_000001_000001_000005_000015_000017_000053_000075_000251_000277_001001_000179_000589_001401_004937_011601_047113_036677_039263,
  1_040336_000001_000003_000005_000015_000023_000047_000053_000081_000115_000547_001363_002457_004407_010861_025649_064013_044747_097949,
  1_040342_000001_000001_000003_000001_000025_000029_000121_000043_000205_000591_000211_001899_005835_000739_019627_060387_127369_011255,
  1_040358_000001_000001_000003_000015_000031_000011_000093_000227_000501_000731_001355_003963_000347_000083_012595_056431_080049_042103,
  1_040381_000001_000003_000001_000011_000013_000017_000051_000165_000311_000067_001873_001493_003815_013209_011637_005809_094219_118077,
  1_040417_000001_000001_000007_000015_000019_000017_000013_000073_000365_000413_001215_002265_002173_008725_004725_001373_076733_095379,
  1_040438_000001_000003_000001_000007_000007_000061_000013_000145_000205_000113_001579_003851_007515_010659_028665_005277_065925_010141,
  1_040463_000001_000003_000007_000001_000009_000063_000011_000083_000197_000797_001065_001521_001751_007423_007473_004371_029533_225167,
  1_040471_000001_000003_000007_000007_000003_000063_000071_000177_000053_000279_001837_002609_007819_007285_011059_065247_102869_024429,
  1_040472_000001_000003_000003_000013_000009_000021_000123_000125_000367_000085_000085_001009_001009_007779_003375_030999_005035_215107,
  1_040488_000001_000003_000003_000009_000031_000053_000005_000043_000483_000483_001359_002605_000377_004243_013291_050211_118603_259865,
  1_040491_000001_000001_000001_000005_000019_000037_000109_000139_000373_000079_001951_003379_005679_006445_029127_056229_097369_232561,
  1_040525_000001_000001_000003_000005_000019_000037_000061_000225_000321_000573_001831_000971_006507_010005_006837_016433_070913_170873,
  1_040526_000001_000001_000005_000011_000031_000017_000021_000029_000329_000679_000869_000389_005121_001819_003539_043793_031617_204983,
  1_040550_000001_000001_000007_000007_000021_000011_000083_000097_000297_000275_001559_001899_004957_011463_025647_021095_070121_113395,
  1_040553_000001_000003_000005_000011_000019_000057_000039_000037_000441_000715_000383_004083_001937_012263_006989_036159_118135_238475,
  1_040562_000001_000001_000001_000003_000009_000053_000085_000201_000357_000807_000865_001621_001993_007623_003165_001005_093343_227765]

def dirRows18_0_24 : List Nat := [
  1_040568_000001_000001_000007_000007_000021_000029_000123_000175_000319_000621_000303_000117_005589_012511_026053_041603_078439_071819,
  1_040580_000001_000001_000007_000015_000031_000047_000075_000225_000295_000067_001349_001749_001363_008763_009153_004059_072015_003155,
  1_040608_000001_000003_000005_000013_000019_000023_000079_000025_000319_000475_001517_002757_004009_012663_000535_051617_055695_064399,
  1_040613_000001_000003_000007_000013_000019_000039_000061_000235_000369_000951_000111_002169_000353_015371_008611_042477_130981_097419,
  1_040652_000001_000001_000003_000013_000027_000031_000115_000201_000003_000291_000793_000237_003593_002307_012745_054603_096451_080853,
  1_040703_000001_000003_000003_000011_000011_000035_000043_000001_000035_000415_001307_002303_005407_006883_029023_031271_119721_090599,
  1_040712_000001_000001_000005_000009_000021_000023_000003_000001_000333_000463_001277_001165_006521_004887_016029_032537_043681_021633,
  1_040720_000001_000001_000001_000013_000001_000035_000045_000057_000293_000435_001113_002477_006641_014083_028489_026189_044695_220481,
  1_040723_000001_000003_000005_000005_000005_000031_000075_000149_000309_000921_000941_001063_007041_012651_029533_046955_088133_089989,
  1_040746_000001_000001_000003_000005_000015_000023_000127_000143_000193_000739_000281_000991_003731_016243_025483_024979_102317_186657,
  1_040759_000001_000001_000003_000013_000003_000063_000023_000069_000181_000163_001733_000893_005513_001525_031483_015033_108021_167875,
  1_040765_000001_000001_000005_000015_000015_000051_000079_000059_000055_000243_000565_000159_007925_008393_020059_035011_053779_166241,
  1_040771_000001_000001_000003_000005_000011_000057_000085_000175_000495_000999_001577_002377_000715_002473_016979_005949_087691_195607,
  1_040778_000001_000001_000001_000013_000017_000021_000053_000073_000187_000063_000335_003251_004439_005701_013469_023567_070125_068931,
  1_040788_000001_000001_000001_000013_000023_000011_000055_000075_000037_000845_000745_002193_007113_005657_029449_041153_115547_087261,
  1_040804_000001_000003_000003_000009_000021_000039_000047_000145_000301_000883_000625_002479_001089_003393_023265_049577_081027_186485,
  1_040835_000001_000001_000003_000007_000003_000011_000037_000117_000079_000905_000493_000265_001819_012179_012361_027457_014459_231837,
  1_040841_000001_000003_000005_000011_000019_000045_000099_000005_000455_000497_001851_002349_005213_003671_005871_043187_059011_211167,
  1_040907_000001_000003_000007_000005_000023_000061_000063_000097_000413_000575_001073_002587_000573_001805_032307_058463_084927_015065,
  1_040934_000001_000003_000001_000013_000023_000009_000039_000001_000053_000383_001277_003599_007719_016175_004443_053143_024345_111899,
  1_040955_000001_000001_000007_000001_000019_000037_000103_000245_000253_000005_001367_003127_004689_005089_030697_045513_111291_026599,
  1_040986_000001_000003_000003_000007_000031_000031_000107_000163_000001_000855_000163_000875_007481_005325_030107_019377_003167_005613,
  1_041007_000001_000001_000005_000013_000021_000017_000115_000203_000233_000333_000441_003185_003197_003397_008515_061879_011163_233277,
  1_041016_000001_000003_000005_000003_000017_000053_000093_000233_000465_000573_001075_001905_001141_004965_013469_024901_023653_225233,
  1_041034_000001_000003_000007_000011_000011_000001_000095_000047_000085_000065_000009_002413_007347_002127_000305_004673_079281_188081,
  1_041041_000001_000001_000007_000005_000009_000005_000027_000023_000393_000201_000467_003677_002641_004671_024627_018927_045137_074167,
  1_041063_000001_000003_000005_000011_000011_000009_000019_000247_000423_000693_001885_001129_007459_008411_002573_054111_098919_160075,
  1_041084_000001_000003_000003_000003_000001_000003_000067_000131_000317_000915_000151_003609_004083_006395_012877_044017_028877_244165,
  1_041093_000001_000003_000001_000003_000001_000033_000029_000023_000019_000323_000873_000115_002439_004699_005449_051637_068889_105197,
  1_041097_000001_000001_000007_000001_000019_000055_000037_000241_000053_000695_000729_001565_000019_012875_026993_018511_035615_169281,
  1_041111_000001_000003_000003_000001_000001_000007_000121_000049_000345_000883_001001_000657_002647_015387_030633_018107_013745_217735,
  1_041118_000001_000003_000005_000015_000011_000045_000073_000077_000307_000373_001723_000335_000473_005735_011747_039257_087199_047663,
  1_041121_000001_000001_000007_000007_000027_000021_000121_000169_000427_000605_001593_003147_001001_003773_031505_022823_021543_082931,
  1_041141_000001_000001_000001_000009_000011_000059_000091_000165_000249_000859_000483_003133_005729_012675_007761_006475_116823_224187,
  1_041160_000001_000001_000003_000003_000027_000031_000051_000001_000429_000517_001439_003959_002343_006709_005287_024039_052409_020749,
  1_041207_000001_000003_000007_000007_000011_000031_000083_000111_000391_000729_000721_001675_005679_014637_022065_049903_113759_040881,
  1_041214_000001_000003_000007_000001_000025_000015_000091_000059_000087_000313_000155_001439_002419_002099_022709_010289_040655_017351,
  1_041255_000001_000003_000005_000001_000015_000005_000011_000021_000261_000227_001563_001177_004731_003487_001607_046599_105599_193425,
  1_041284_000001_000001_000005_000005_000005_000045_000077_000181_000431_000027_001985_000881_002555_007589_016199_031041_066683_052499,
  1_041287_000001_000001_000001_000015_000005_000029_000111_000209_000335_000747_000093_003551_005951_014995_018451_033329_009117_167455,
  1_041308_000001_000003_000001_000007_000025_000009_000113_000123_000387_000087_000267_002251_003509_010829_032733_048025_058267_143553,
  1_041330_000001_000003_000005_000015_000017_000017_000065_000107_000175_000427_000733_000797_003837_012773_027865_029481_004557_196163,
  1_041336_000001_000003_000001_000003_000001_000053_000093_000175_000509_000351_001093_001039_006931_002691_014957_044395_084383_058915,
  1_041437_000001_000001_000001_000011_000001_000043_000061_000123_000377_000813_001335_001597_000147_013663_030781_047635_024111_064307,
  1_041444_000001_000001_000003_000011_000025_000027_000015_000215_000125_000679_001491_003203_005403_004531_011839_044227_049239_110439,
  1_041456_000001_000001_000003_000013_000009_000035_000071_000127_000127_000629_001363_000585_006713_010637_006803_020963_047157_157781,
  1_041481_000001_000001_000003_000011_000013_000021_000117_000241_000365_000175_001397_001279_004117_005427_024007_050711_000465_225003,
  1_041489_000001_000001_000001_000009_000013_000063_000049_000189_000113_000061_000353_002221_007541_004075_005283_005505_051035_035191,
  1_041499_000001_000001_000007_000009_000011_000037_000123_000063_000331_000691_001299_001661_003769_007827_032127_032149_007271_150363,
  1_041555_000001_000001_000001_000005_000025_000005_000127_000195_000413_000657_000479_000879_006743_008959_000791_022425_077119_180721,
  1_041561_000001_000001_000007_000003_000013_000057_000123_000125_000135_000069_000455_003363_001783_001557_020401_026707_130345_195881,
  1_041562_000001_000003_000003_000007_000027_000019_000125_000071_000201_001017_001285_003955_005255_014375_018163_028537_076157_247193,
  1_041571_000001_000001_000003_000001_000027_000033_000123_000137_000189_000655_001891_002419_005195_000097_032565_038581_062715_164697,
  1_041592_000001_000001_000001_000015_000009_000047_000023_000147_000197_000503_001803_002953_002961_013787_010545_035465_053997_198655,
  1_041631_000001_000003_000001_000009_000009_000043_000065_000237_000119_000621_001517_003479_004165_012797_014731_053131_105501_112845,
  1_041661_000001_000003_000003_000015_000003_000023_000047_000163_000469_000363_001813_003107_006167_008987_026829_033099_006821_203017,
  1_041682_000001_000001_000001_000009_000001_000011_000085_000011_000251_000907_000395_003935_003403_000229_016825_048337_103647_091425,
  1_041710_000001_000003_000001_000005_000017_000057_000021_000181_000031_000027_000235_004041_004927_008319_029765_061603_019081_075879,
  1_041724_000001_000001_000005_000015_000011_000003_000007_000225_000247_000221_000251_001979_001151_010829_026491_039705_041587_099063,
  1_041727_000001_000003_000005_000005_000019_000023_000057_000127_000467_000409_000043_000829_003883_010767_024351_031365_115943_209231,
  1_041730_000001_000001_000007_000015_000003_000051_000017_000251_000219_000033_001511_002027_004995_012277_007639_059895_085267_087735,
  1_041744_000001_000003_000007_000003_000007_000029_000093_000057_000427_000235_001591_003475_001159_002387_000851_043307_087081_151543,
  1_041769_000001_000003_000007_000007_000001_000009_000021_000167_000073_000439_002035_002091_004563_004819_005591_057123_078739_063235,
  1_041795_000001_000001_000003_000013_000019_000035_000063_000017_000425_000277_001669_000931_000597_005621_022367_001155_109099_169965,
  1_041798_000001_000003_000007_000005_000011_000011_000041_000071_000035_000183_000555_002631_005199_016381_016319_001851_121551_141711,
  1_041804_000001_000003_000005_000005_000021_000017_000003_000095_000047_001011_001757_003295_001111_016043_006377_016257_037941_206637,
  1_041826_000001_000003_000001_000005_000025_000019_000019_000069_000395_000589_001311_001075_005763_012475_003633_040647_054487_097459,
  1_041852_000001_000003_000005_000007_000013_000023_000083_000091_000419_000415_000685_001685_002893_012953_030641_043565_011851_187837,
  1_041868_000001_000001_000005_000011_000027_000001_000061_000155_000279_000737_000215_002909_000969_000057_017979_034537_041861_243717,
  1_041910_000001_000001_000005_000001_000017_000061_000057_000199_000127_000569_001109_003057_007301_016097_017579_025753_082653_237273,
  1_041914_000001_000001_000007_000015_000017_000045_000019_000053_000153_000785_000051_000291_005261_001317_021163_044393_108131_254373,
  1_041942_000001_000001_000003_000011_000005_000019_000061_000125_000127_000961_002019_001725_000855_000677_020853_038845_003239_095697,
  1_041969_000001_000001_000003_000015_000003_000003_000117_000017_000061_000201_000241_001759_004465_003985_006985_047703_058657_052633,
  1_041975_000001_000003_000003_000011_000031_000039_000107_000171_000019_000825_001309_000807_007787_010761_020215_009287_021553_179599,
  1_041976_000001_000003_000007_000009_000005_000007_000121_000015_000003_000199_000097_003177_005461_015713_027609_054349_024963_186279,
  1_041994_000001_000003_000001_000015_000011_000009_000123_000187_000363_000005_000837_000451_001601_006597_010857_046893_083729_020409,
  1_042002_000001_000003_000001_000009_000001_000053_000071_000191_000217_000165_001709_001827_001977_010073_011373_035311_026637_134519,
  1_042037_000001_000003_000005_000011_000031_000055_000101_000189_000277_000347_000629_000223_000785_005739_025505_055601_055017_212837,
  1_042056_000001_000001_000005_000011_000003_000013_000045_000235_000065_000459_000621_000587_007105_006181_013193_005683_042935_198585,
  1_042079_000001_000001_000003_000001_000003_000017_000027_000109_000261_000979_000903_001499_004799_011759_010591_065429_074587_016629,
  1_042085_000001_000001_000005_000001_000013_000063_000029_000011_000441_000151_000611_004073_003933_006793_028845_039223_120823_049397,
  1_042089_000001_000003_000003_000005_000021_000013_000023_000053_000357_000197_001327_001773_002961_011509_016585_010201_028451_045109,
  1_042123_000001_000003_000005_000007_000019_000017_000097_000063_000295_000111_000085_002981_006719_009193_015197_012117_002553_059909,
  1_042128_000001_000001_000005_000005_000015_000003_000009_000085_000333_000379_001409_001445_004173_003953_000833_048089_120249_122703,
  1_042140_000001_000003_000007_000007_000029_000013_000057_000019_000141_000979_001991_004011_008125_003915_015753_001371_113771_117273,
  1_042149_000001_000003_000003_000013_000021_000053_000115_000187_000279_000029_001355_001843_000253_003531_008193_054731_006213_123467,
  1_042156_000001_000003_000003_000001_000025_000029_000109_000019_000037_000385_000901_003737_006247_009941_013185_002895_088819_053029,
  1_042186_000001_000001_000001_000001_000003_000031_000089_000157_000483_000657_001833_002975_003187_000631_028685_007277_004915_115955,
  1_042191_000001_000003_000003_000001_000025_000041_000013_000099_000385_000303_000297_000419_007919_012411_000757_009227_047867_120175,
  1_042205_000001_000003_000005_000011_000023_000015_000021_000157_000177_000301_000789_002791_005769_007809_002369_026123_116465_022595,
  1_042221_000001_000001_000005_000009_000017_000063_000045_000239_000465_000811_001157_001443_008137_012587_026209_062057_059299_167171,
  1_042222_000001_000003_000003_000007_000003_000045_000041_000017_000341_000461_000571_000541_000989_004069_017531_046729_107915_047871,
  1_042230_000001_000001_000007_000001_000001_000023_000045_000213_000125_000799_000005_003443_002535_012983_002133_063411_093027_089831,
  1_042233_000001_000001_000001_000015_000007_000031_000049_000181_000213_000923_000281_002059_000861_006951_025659_032209_066423_225885,
  1_042241_000001_000003_000003_000007_000009_000039_000107_000197_000383_000179_000027_001395_006397_016139_032049_033567_043977_203939,
  1_042247_000001_000001_000003_000005_000013_000037_000013_000031_000339_000527_000641_000181_001413_008145_000341_057605_108031_109311,
  1_042248_000001_000001_000001_000001_000021_000035_000087_000015_000279_000967_001003_000813_005075_010595_005609_033901_086443_150007,
  1_042254_000001_000003_000001_000005_000027_000009_000075_000199_000377_000889_000545_001987_006277_000361_012563_035699_027105_187995,
  1_042259_000001_000003_000007_000001_000011_000003_000041_000215_000273_000061_000821_001207_002809_008731_026409_050323_022355_016521,
  1_042268_000001_000001_000007_000005_000029_000013_000099_000133_000015_000673_000215_000445_004051_002187_009395_062491_058685_224707]

def dirRows18_0_25 : List Nat := [
  1_042295_000001_000003_000003_000013_000021_000059_000017_000001_000271_000613_000939_001881_002379_016325_003275_063707_059961_106937,
  1_042304_000001_000003_000003_000001_000023_000053_000051_000181_000391_000375_000767_000239_000373_004593_025211_037173_070409_252345,
  1_042322_000001_000003_000003_000011_000015_000017_000037_000145_000041_000107_000151_001351_003457_014727_000755_036321_099397_073359,
  1_042334_000001_000003_000005_000007_000025_000031_000039_000185_000341_000721_001799_001803_005985_010587_011605_009937_023905_056485,
  1_042355_000001_000003_000001_000003_000019_000035_000025_000071_000109_000209_001675_004043_002053_006285_025317_050171_068293_124385,
  1_042361_000001_000001_000001_000001_000021_000011_000063_000137_000361_000157_001985_002161_007239_001795_010459_038511_036817_253347,
  1_042373_000001_000001_000001_000005_000031_000003_000013_000083_000185_000175_000567_000295_000459_011453_003765_009841_030333_201377,
  1_042374_000001_000001_000003_000013_000005_000057_000099_000125_000371_000903_002001_000285_002005_008475_031617_058265_000641_115507,
  1_042398_000001_000003_000005_000009_000011_000017_000123_000067_000077_000803_000815_003173_004795_011917_001187_032389_102289_248359,
  1_042411_000001_000001_000005_000005_000027_000019_000059_000145_000361_000821_000033_001465_007643_011101_000145_021705_055105_181245,
  1_042443_000001_000003_000007_000005_000015_000055_000127_000133_000157_000989_001211_003573_004021_002967_002941_038657_097681_114505,
  1_042446_000001_000001_000007_000007_000023_000017_000039_000209_000117_000195_000931_000005_007509_009187_006011_010297_013727_258007,
  1_042463_000001_000003_000001_000013_000003_000017_000105_000069_000009_000163_001615_000241_005207_013173_028521_051417_130645_106787,
  1_042479_000001_000001_000007_000013_000015_000003_000005_000187_000005_000239_001799_003083_007801_012781_024817_059341_073867_175273,
  1_042482_000001_000001_000003_000011_000011_000001_000089_000017_000497_000217_001565_002933_006449_007687_006561_057903_092751_261371,
  1_042484_000001_000001_000001_000001_000015_000039_000047_000249_000039_000765_000249_002785_004401_016033_011463_000127_120109_083133,
  1_042498_000001_000001_000003_000003_000019_000059_000047_000153_000505_001009_000413_001177_005999_006841_012013_040295_115641_189241,
  1_042534_000001_000003_000003_000011_000017_000051_000045_000101_000459_000971_001133_003467_004945_012445_001267_041783_066825_130167,
  1_042537_000001_000003_000001_000007_000017_000045_000077_000211_000387_000023_001903_002309_002681_006897_006959_030981_113537_207415,
  1_042557_000001_000001_000003_000001_000019_000009_000103_000089_000461_000881_000071_002019_006475_013563_018835_002375_034807_001373,
  1_042570_000001_000001_000007_000011_000003_000031_000125_000121_000043_000737_001995_003043_000811_008883_008169_022131_029295_194963,
  1_042599_000001_000003_000007_000011_000007_000045_000125_000149_000427_000187_001361_002405_002815_008877_015255_036867_095517_261969,
  1_042600_000001_000001_000007_000011_000009_000029_000089_000175_000467_000997_000937_003869_007843_012629_008701_060717_030443_193427,
  1_042633_000001_000001_000005_000007_000003_000003_000057_000199_000315_000477_000189_002029_002059_003473_027411_030419_026465_187807,
  1_042639_000001_000003_000001_000015_000003_000003_000011_000055_000233_000603_001749_001737_005709_004559_013427_039137_044885_061611,
  1_042672_000001_000001_000007_000001_000025_000015_000061_000199_000107_000737_000909_003229_001799_005129_027655_045937_000919_036161,
  1_042681_000001_000001_000003_000005_000031_000027_000099_000247_000425_000689_001335_001661_000625_015817_022601_033293_113927_261931,
  1_042687_000001_000001_000001_000009_000005_000057_000117_000121_000465_000859_000335_000879_000665_012787_021313_046387_016437_053769,
  1_042704_000001_000001_000003_000001_000011_000011_000075_000145_000307_000621_000833_000235_003907_011331_006633_051905_072581_129613,
  1_042713_000001_000001_000003_000013_000017_000013_000081_000125_000377_000499_001597_003437_004323_000789_023825_046609_105997_159709,
  1_042714_000001_000003_000003_000009_000005_000029_000113_000051_000023_000957_001981_003205_002549_009771_002555_044289_103893_170241,
  1_042716_000001_000001_000005_000015_000013_000017_000101_000067_000071_000007_000185_003775_005399_005213_013095_026045_059467_095547,
  1_042726_000001_000001_000005_000005_000031_000011_000077_000169_000003_001007_001853_002245_000509_013489_002807_055227_067541_242835,
  1_042730_000001_000003_000007_000015_000011_000063_000039_000097_000001_000219_001827_002343_006009_004909_004327_021853_046079_087719,
  1_042737_000001_000003_000001_000009_000017_000051_000119_000093_000179_000607_001051_002381_000619_011215_010839_044771_020555_012721,
  1_042752_000001_000003_000003_000005_000021_000047_000035_000133_000061_000937_001561_001655_006527_005085_004141_060811_059971_006309,
  1_042757_000001_000003_000001_000007_000005_000063_000007_000235_000489_000675_000945_000943_007107_006005_032695_027655_113219_132963,
  1_042772_000001_000001_000001_000007_000007_000005_000081_000237_000365_000001_000811_003075_001771_005223_007337_024601_068383_156975,
  1_042809_000001_000003_000001_000015_000005_000035_000039_000091_000301_000387_000805_003537_000737_007453_004655_016349_108261_123697,
  1_042853_000001_000003_000005_000003_000009_000059_000095_000187_000155_000183_000589_002107_000967_001095_004875_046131_100699_212797,
  1_042857_000001_000003_000001_000007_000027_000029_000077_000133_000397_000445_000933_001483_005027_012569_022163_058989_016657_195347,
  1_042902_000001_000003_000005_000015_000021_000051_000097_000135_000165_000311_000525_000171_004785_007947_014649_040837_058875_222303,
  1_042912_000001_000003_000003_000005_000023_000047_000041_000023_000321_000709_001555_001139_003775_011617_013001_018235_051803_197863,
  1_042930_000001_000003_000005_000003_000003_000041_000091_000157_000029_001005_000945_003471_002563_008493_024961_044759_103079_050841,
  1_042936_000001_000001_000005_000011_000023_000019_000091_000115_000165_000291_001653_001061_001067_006171_018441_026067_003569_117329,
  1_042956_000001_000003_000007_000015_000017_000019_000089_000023_000103_000389_000623_001071_000203_009545_021259_036155_055395_141741,
  1_042959_000001_000003_000005_000011_000027_000043_000031_000193_000055_000489_000353_001615_007461_013977_031901_064051_082667_258825,
  1_042978_000001_000001_000003_000007_000005_000039_000007_000245_000241_000843_001545_003499_008117_015057_014153_002665_107401_066059,
  1_043001_000001_000003_000005_000011_000009_000011_000041_000171_000255_000153_001973_000759_000051_015601_000327_025889_110861_020555,
  1_043011_000001_000003_000005_000007_000005_000015_000041_000077_000087_000143_001141_003975_002675_007131_005549_052397_042073_027585,
  1_043047_000001_000001_000003_000007_000029_000005_000079_000243_000359_000817_001053_003509_003347_006207_005147_031063_116851_132627,
  1_043059_000001_000003_000007_000003_000027_000051_000039_000007_000095_000239_000263_003497_000867_001869_016773_046947_059193_037523,
  1_043094_000001_000003_000001_000001_000025_000031_000113_000127_000187_000077_000675_003307_000999_012255_026441_030933_122761_116783,
  1_043124_000001_000001_000005_000007_000007_000011_000087_000059_000437_000485_000685_003159_007259_016271_024899_017919_130271_052953,
  1_043218_000001_000001_000003_000011_000007_000013_000061_000157_000149_001001_000285_003631_001923_016013_019507_064447_008073_261171,
  1_043220_000001_000003_000007_000009_000007_000013_000045_000007_000225_000671_000287_001059_005223_002077_007551_058385_092955_162725,
  1_043240_000001_000001_000005_000011_000011_000021_000017_000145_000097_000633_000475_002639_002069_009663_023633_050949_109941_119865,
  1_043258_000001_000001_000005_000013_000009_000049_000127_000171_000199_000413_001315_000645_000305_012123_009559_038319_099945_103313,
  1_043263_000001_000003_000005_000003_000019_000021_000119_000017_000301_000611_001785_002081_002245_008761_004755_009507_023133_144575,
  1_043265_000001_000003_000007_000011_000017_000025_000101_000059_000397_000249_000687_000715_001151_015941_020525_005171_024073_046257,
  1_043290_000001_000001_000003_000015_000011_000045_000009_000201_000421_000867_000389_003615_005965_010561_018309_017143_052771_230743,
  1_043346_000001_000001_000003_000005_000009_000001_000109_000233_000431_000849_000421_000475_001331_009903_020649_034759_118611_038541,
  1_043364_000001_000003_000005_000015_000009_000055_000113_000217_000083_000409_001449_002325_004825_011311_014565_065075_124399_003591,
  1_043373_000001_000003_000003_000009_000027_000013_000101_000181_000255_000313_000693_000951_001153_013941_014097_008325_004589_102883,
  1_043401_000001_000003_000007_000003_000003_000001_000043_000065_000321_000623_001389_000057_003461_009965_006743_034843_091673_249573,
  1_043416_000001_000003_000005_000005_000011_000029_000101_000079_000275_000685_000569_000059_006921_016065_030625_053339_032283_093401,
  1_043443_000001_000003_000001_000011_000029_000033_000103_000145_000431_000289_001845_001915_000023_000699_005475_018413_127185_162637,
  1_043458_000001_000003_000001_000011_000027_000023_000071_000063_000045_000579_001187_001189_001781_005595_009043_010155_033321_036487,
  1_043497_000001_000003_000003_000015_000017_000019_000085_000233_000293_000833_001711_000857_007573_000393_023141_058713_021399_228381,
  1_043506_000001_000003_000003_000015_000003_000035_000033_000035_000403_000123_000575_003509_006303_013203_017997_015649_064331_124101,
  1_043545_000001_000001_000003_000009_000023_000025_000039_000053_000119_000879_000573_003225_005069_015489_021887_011773_037783_169523,
  1_043558_000001_000003_000005_000005_000005_000025_000029_000189_000145_000863_000661_003939_001059_011993_001487_003157_118287_069835,
  1_043576_000001_000003_000007_000003_000015_000009_000085_000107_000017_000965_001097_002087_001947_014649_004099_050941_064511_209153,
  1_043579_000001_000003_000005_000015_000019_000021_000127_000071_000429_000097_001989_000835_000743_011973_014635_045371_114657_208085,
  1_043624_000001_000003_000005_000007_000023_000061_000099_000133_000235_000237_000435_002681_000331_007859_020859_003573_102901_000775,
  1_043630_000001_000003_000003_000009_000007_000057_000029_000015_000053_000569_000871_001703_002573_010791_000719_003487_105709_089573,
  1_043637_000001_000001_000001_000009_000007_000021_000021_000207_000459_000621_000737_000635_005101_004343_004961_032067_064017_073675,
  1_043654_000001_000001_000003_000009_000025_000027_000077_000069_000251_000327_000921_003759_001715_014537_021399_010937_009085_241329,
  1_043660_000001_000001_000005_000001_000023_000013_000063_000117_000081_000427_001063_001987_002433_014837_013473_028623_044799_202223,
  1_043696_000001_000003_000001_000011_000017_000055_000089_000089_000455_000255_001009_001891_002197_009045_023543_048783_022871_058613,
  1_043706_000001_000003_000007_000015_000025_000005_000011_000071_000399_000023_000239_000093_006681_011311_023403_058131_059549_038917,
  1_043725_000001_000001_000001_000001_000019_000063_000073_000031_000069_000145_000921_002475_003505_004797_023805_028621_101153_098895,
  1_043733_000001_000003_000003_000003_000009_000001_000113_000111_000275_000851_000519_001607_000635_013287_006191_024545_112039_114383,
  1_043753_000001_000003_000007_000009_000013_000013_000107_000097_000037_000133_000021_001059_004201_006777_002843_043503_023761_013247,
  1_043756_000001_000001_000007_000009_000025_000023_000101_000135_000471_000901_000539_004083_001765_015553_005879_010787_067543_104543,
  1_043761_000001_000003_000003_000013_000025_000063_000001_000049_000287_000357_001701_003689_003895_016313_022619_020203_008195_093127,
  1_043768_000001_000001_000001_000011_000015_000037_000075_000043_000311_000443_001639_000549_004707_003099_000677_059115_011709_071013,
  1_043812_000001_000001_000005_000011_000017_000043_000023_000021_000421_000613_000199_001029_005255_000271_012911_063431_108889_253379,
  1_043822_000001_000003_000007_000011_000027_000045_000009_000089_000065_000025_001183_003497_008123_002389_000215_016819_063777_163423,
  1_043841_000001_000001_000005_000005_000029_000043_000065_000201_000391_000861_001133_003985_000983_013039_015545_013695_091467_000963,
  1_043861_000001_000003_000007_000003_000009_000055_000073_000205_000287_000765_000941_000353_007379_002511_000555_064399_077605_121959,
  1_043868_000001_000003_000001_000011_000025_000015_000109_000035_000351_000675_001219_003791_000233_015133_030733_024477_086077_085857,
  1_043877_000001_000001_000001_000007_000013_000033_000063_000045_000503_000525_000781_000517_002187_001587_017297_026147_035421_061269,
  1_043878_000001_000003_000001_000009_000009_000035_000069_000079_000447_000675_000803_002793_005793_004433_029227_005437_103347_037713,
  1_043908_000001_000003_000001_000009_000027_000031_000065_000167_000327_000231_001959_000657_003141_008659_011055_023923_073597_187139,
  1_043917_000001_000001_000005_000009_000029_000005_000037_000003_000281_000693_000133_002139_005867_012073_023669_011427_080627_249003,
  1_043936_000001_000001_000001_000013_000009_000035_000089_000203_000381_000281_000535_001061_007417_013373_012149_037943_113133_110797,
  1_043954_000001_000001_000007_000005_000007_000017_000071_000065_000385_000851_001357_003435_004441_006999_027065_032753_129531_052447,
  1_043963_000001_000003_000007_000001_000003_000021_000025_000113_000361_000219_001345_002193_005711_003331_014343_023075_039955_071223,
  1_043977_000001_000001_000007_000009_000015_000009_000101_000183_000059_000861_000931_003385_006517_012067_007753_037997_128361_004591]

/-- Rows with 18 initial numbers, part 0. -/
def dir18_0 : List (List Nat) := [
  dirRows18_0_0,
  dirRows18_0_1,
  dirRows18_0_2,
  dirRows18_0_3,
  dirRows18_0_4,
  dirRows18_0_5,
  dirRows18_0_6,
  dirRows18_0_7,
  dirRows18_0_8,
  dirRows18_0_9,
  dirRows18_0_10,
  dirRows18_0_11,
  dirRows18_0_12,
  dirRows18_0_13,
  dirRows18_0_14,
  dirRows18_0_15,
  dirRows18_0_16,
  dirRows18_0_17,
  dirRows18_0_18,
  dirRows18_0_19,
  dirRows18_0_20,
  dirRows18_0_21,
  dirRows18_0_22,
  dirRows18_0_23,
  dirRows18_0_24,
  dirRows18_0_25]

end SALib.Data
