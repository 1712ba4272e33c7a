/-! # Direction-number table, rows 16024 to 18623

Generated from `src/SALib/sample/directions.py` lines 16026-18625.  One row per line: a leading 1, then
every number of the row padded to six digits (so the row `(7, 1, 1, 7, 11, 19)` is
`1_000007_000001_000001_000007_000011_000019`).  Rows are grouped by the number `s` of initial numbers. -/

namespace SALib.Data

def dirRows18_1_0 : List Nat := [
  1_044008_000001_000003_000005_000003_000023_000005_000037_000217_000203_000749_000993_002537_002425_013949_017235_015461_021275_141815,
  1_044013_000001_000003_000005_000001_000019_000059_000063_000241_000211_000285_002033_001111_002859_014801_009491_014557_012973_223089,
  1_044026_000001_000001_000001_000011_000015_000041_000057_000059_000233_000897_001193_000381_002237_005309_019237_057607_097941_116573,
  1_044028_000001_000001_000003_000009_000015_000017_000075_000015_000385_000129_000495_000887_004933_015113_007449_056213_015841_248029,
  1_044045_000001_000003_000001_000001_000029_000037_000019_000221_000047_000185_001105_003297_005235_006917_012041_010815_054747_132329,
  1_044046_000001_000003_000001_000005_000003_000017_000033_000035_000395_000491_001157_002563_006257_001025_018295_005293_077851_140157,
  1_044053_000001_000003_000001_000013_000007_000031_000095_000021_000347_000409_001485_000925_000327_011497_007305_006503_111175_070989,
  1_044091_000001_000003_000003_000001_000011_000041_000127_000093_000367_000649_001585_003379_007269_005537_026077_028541_055379_022989,
  1_044101_000001_000001_000001_000005_000027_000011_000035_000049_000007_000113_001477_003615_007567_000505_013915_051023_050783_045031,
  1_044129_000001_000001_000007_000005_000025_000001_000035_000059_000269_000427_000791_003179_001423_009801_017717_023631_097947_126861,
  1_044139_000001_000003_000005_000007_000001_000051_000077_000097_000019_000287_000303_000791_000307_004939_013615_061225_098127_114693,
  1_044172_000001_000003_000003_000015_000005_000005_000093_000119_000429_000977_001763_003727_001761_003597_016489_000071_044103_257929,
  1_044203_000001_000001_000005_000001_000015_000029_000079_000033_000335_000381_001233_000047_006741_004953_029689_011223_129185_182487,
  1_044211_000001_000001_000001_000011_000029_000027_000027_000189_000507_000523_001949_002567_004105_001227_016631_034187_028521_000265,
  1_044240_000001_000003_000003_000007_000003_000007_000039_000155_000315_000439_001953_001227_006135_016291_000453_050929_067507_166981,
  1_044259_000001_000003_000001_000005_000007_000055_000121_000119_000087_000869_001049_000575_003675_013505_015661_043899_106877_141691,
  1_044305_000001_000003_000001_000011_000023_000009_000117_000243_000329_000767_000335_002951_002887_013441_027579_015437_031699_165177,
  1_044383_000001_000003_000007_000011_000005_000049_000047_000125_000431_000511_000299_003215_003287_007029_009737_028317_034355_232365,
  1_044384_000001_000003_000007_000003_000017_000009_000029_000255_000509_000393_001583_001979_006735_000941_004393_035741_082019_109633,
  1_044389_000001_000001_000005_000001_000013_000031_000095_000133_000117_000257_000993_001513_004669_012239_007841_000751_079567_023289,
  1_044390_000001_000001_000007_000009_000025_000033_000127_000181_000061_000333_001087_001661_002715_002569_030041_004937_036053_003435,
  1_044432_000001_000003_000001_000013_000015_000027_000123_000073_000377_000085_000435_003435_002079_009271_028685_030089_038799_210247,
  1_044435_000001_000001_000005_000003_000005_000017_000093_000181_000313_000837_001115_003099_003603_003483_023185_009933_053127_123245,
  1_044468_000001_000001_000001_000013_000003_000057_000011_000067_000041_000273_001005_002313_000505_006593_027287_047359_104597_045475,
  1_044472_000001_000001_000001_000005_000013_000041_000097_000251_000317_000483_000163_001493_006629_011995_031293_004715_098569_178419,
  1_044483_000001_000003_000005_000005_000021_000007_000069_000169_000223_000953_001573_001137_008075_007733_023031_014589_006453_228883,
  1_044497_000001_000001_000007_000009_000027_000037_000003_000183_000041_000099_000111_001713_001291_008263_006373_039549_003099_156793,
  1_044550_000001_000001_000003_000001_000023_000043_000015_000027_000223_000173_001601_002159_003595_015143_031065_035799_077339_141397,
  1_044577_000001_000001_000005_000013_000009_000035_000027_000093_000023_000999_000593_000563_005333_008825_027277_046381_003171_006311,
  1_044584_000001_000003_000007_000015_000025_000017_000007_000237_000379_000649_001879_002643_005951_004227_004937_024549_043577_116327,
  1_044601_000001_000001_000003_000009_000029_000035_000101_000105_000019_000151_001135_000897_002427_015779_031851_029183_044471_187817,
  1_044674_000001_000003_000007_000011_000009_000055_000019_000115_000395_000559_001883_000409_002459_000201_018975_000339_108251_019429,
  1_044683_000001_000003_000001_000013_000001_000011_000067_000045_000407_000169_001401_000381_003913_006491_028133_063857_052095_115749,
  1_044688_000001_000001_000001_000011_000021_000045_000065_000253_000511_000051_000893_003533_002101_004779_023941_022449_082457_044447,
  1_044694_000001_000001_000007_000011_000019_000033_000101_000241_000493_000111_001967_000469_006575_010445_000733_056467_027403_025863,
  1_044703_000001_000003_000001_000001_000005_000049_000021_000079_000053_000621_000043_001183_001385_009129_021727_035559_035269_211383,
  1_044713_000001_000001_000001_000013_000023_000043_000053_000145_000149_000611_000745_000899_007095_003243_001993_035807_110783_246199,
  1_044721_000001_000001_000007_000009_000025_000037_000071_000233_000407_000001_001749_000759_007689_015573_007351_033505_022631_049125,
  1_044722_000001_000003_000001_000013_000031_000049_000105_000013_000257_000843_001171_002819_000621_012567_024339_006689_127413_249671,
  1_044733_000001_000001_000005_000011_000005_000001_000093_000021_000317_000789_000571_002493_007255_006459_014737_013989_047003_246561,
  1_044746_000001_000003_000005_000007_000009_000011_000069_000143_000175_000581_000825_002219_001165_009061_006073_057169_018135_094943,
  1_044748_000001_000001_000005_000007_000007_000055_000121_000107_000395_000939_001291_002497_003757_001361_031823_019375_022551_224653,
  1_044760_000001_000001_000007_000015_000015_000001_000047_000225_000223_000589_001539_000173_006257_005461_011197_009801_080687_084279,
  1_044765_000001_000003_000007_000011_000023_000047_000083_000119_000367_000895_000431_001949_000565_001397_024911_029661_067861_074621,
  1_044766_000001_000003_000003_000009_000017_000029_000015_000065_000157_000255_000303_001467_003279_008873_031279_000431_008497_007209,
  1_044775_000001_000001_000005_000013_000009_000039_000085_000133_000427_000897_001665_002109_002865_015573_027729_059905_002241_083099,
  1_044794_000001_000003_000001_000013_000001_000045_000065_000065_000249_000079_001515_000503_000953_009859_013307_027419_102209_107529,
  1_044822_000001_000003_000007_000009_000017_000013_000079_000093_000231_000005_001811_000557_001837_008077_008109_003497_079985_134375,
  1_044841_000001_000001_000005_000009_000015_000003_000023_000027_000491_000009_001657_003877_003783_012645_002599_010673_040035_197681,
  1_044859_000001_000001_000005_000003_000005_000013_000121_000145_000291_000621_001731_000145_002033_000341_003667_004139_052035_115865,
  1_044894_000001_000003_000005_000005_000003_000029_000115_000227_000339_000023_001659_002367_001079_010757_030709_041473_055847_228761,
  1_044900_000001_000003_000005_000007_000007_000061_000103_000057_000197_000031_000237_002507_005247_010529_013823_047845_129031_047029,
  1_044904_000001_000003_000007_000005_000003_000017_000091_000031_000277_000977_001905_003991_003657_012197_014535_043263_109629_031665,
  1_044946_000001_000001_000005_000015_000029_000043_000121_000113_000159_000929_000669_002067_004999_006847_012369_061795_098525_078051,
  1_044967_000001_000001_000003_000007_000025_000061_000065_000079_000373_000683_000113_001495_005447_015507_016731_053959_062905_252173,
  1_044994_000001_000003_000001_000011_000001_000015_000101_000055_000477_000357_000333_003243_003325_005885_011385_000685_090575_023015,
  1_044999_000001_000003_000001_000007_000015_000013_000091_000141_000209_000865_002035_002791_000367_009953_029547_036731_013649_192911,
  1_045013_000001_000001_000005_000015_000009_000059_000037_000131_000003_000299_000897_000119_007515_005271_002207_018187_062613_210345,
  1_045017_000001_000003_000001_000007_000029_000053_000095_000185_000327_000473_001525_003751_000915_005883_004137_046343_104917_182895,
  1_045020_000001_000001_000007_000003_000031_000057_000053_000169_000215_000607_000541_001081_005265_002509_028379_041767_019435_143693,
  1_045027_000001_000001_000007_000007_000031_000057_000019_000203_000467_000057_001305_001513_006069_015595_031717_044687_065335_159315,
  1_045029_000001_000001_000001_000001_000013_000001_000041_000039_000489_000465_001645_002847_006193_011025_011297_055945_092085_243061,
  1_045066_000001_000003_000003_000013_000015_000047_000087_000077_000321_000903_000181_002093_001673_005375_017969_048467_083441_120867,
  1_045074_000001_000003_000003_000013_000013_000017_000065_000181_000283_000471_000745_001091_007255_005987_029423_027579_096201_218157,
  1_045080_000001_000001_000001_000007_000013_000005_000101_000131_000309_000401_000099_002353_000055_002377_006059_064777_033401_225605,
  1_045090_000001_000003_000001_000015_000009_000035_000037_000197_000065_000593_000411_002233_001485_009599_009581_031935_115145_076867,
  1_045101_000001_000003_000007_000009_000003_000041_000103_000237_000453_000335_001831_003947_007573_003859_012495_060617_020715_163119,
  1_045110_000001_000003_000005_000007_000009_000009_000025_000079_000421_000267_000585_001093_002237_008881_007311_039417_110901_008969,
  1_045113_000001_000003_000003_000015_000001_000029_000075_000159_000089_000965_000457_001645_001485_000729_030547_002275_079633_126089,
  1_045134_000001_000003_000007_000007_000019_000047_000055_000115_000287_000477_000719_003311_002455_012033_013811_034011_045153_126991,
  1_045136_000001_000003_000007_000005_000009_000033_000027_000215_000007_000113_001027_000415_001057_013011_001547_007955_021347_079427,
  1_045148_000001_000003_000001_000011_000001_000041_000027_000029_000255_000763_000219_000897_000915_000453_009417_022845_031655_228869,
  1_045158_000001_000001_000007_000013_000007_000049_000105_000111_000053_000219_000171_000841_005027_005311_028171_058719_032241_170921,
  1_045176_000001_000003_000005_000007_000021_000053_000011_000169_000045_000429_001727_001953_008119_014955_019997_062665_031345_135715,
  1_045181_000001_000001_000005_000013_000017_000013_000125_000247_000411_000663_001725_002515_007995_008963_005797_032871_066603_137997,
  1_045185_000001_000001_000005_000005_000023_000037_000015_000063_000035_000817_000463_001413_001203_008031_004169_045755_093511_134751,
  1_045188_000001_000001_000001_000001_000031_000017_000015_000125_000199_000057_001499_001567_006113_006503_000515_057841_049885_213881,
  1_045203_000001_000001_000007_000007_000015_000001_000067_000213_000197_000471_000577_000027_001533_013009_031861_062435_113139_077057,
  1_045209_000001_000003_000007_000001_000029_000021_000099_000173_000137_000019_001727_001157_005215_004367_028803_026031_120195_060111,
  1_045231_000001_000001_000005_000009_000025_000055_000027_000045_000231_000693_000765_000429_002897_006045_019705_061903_005385_172967,
  1_045234_000001_000003_000001_000005_000009_000017_000035_000151_000091_000041_000089_003751_000027_005721_026117_006105_031609_079569,
  1_045239_000001_000003_000005_000011_000015_000003_000025_000073_000383_000765_000729_000051_004245_006215_009435_045223_068071_068453,
  1_045246_000001_000001_000007_000005_000031_000061_000019_000153_000331_000233_000011_003047_003939_011959_000897_004437_002941_174493,
  1_045260_000001_000001_000007_000011_000027_000011_000083_000033_000007_000761_000805_002327_002997_012269_018707_010615_114357_054951,
  1_045284_000001_000003_000005_000009_000003_000045_000065_000193_000347_000771_000663_002901_006467_014109_005169_038021_039605_216877,
  1_045301_000001_000001_000007_000001_000001_000013_000109_000179_000499_000325_001763_001923_007429_000259_020589_048473_049605_124709,
  1_045333_000001_000003_000001_000003_000005_000027_000025_000127_000313_000541_000589_000751_005959_005801_032467_040597_075625_024827,
  1_045350_000001_000001_000001_000003_000013_000035_000071_000223_000281_000767_000447_001253_002227_007305_023125_062847_016783_076145,
  1_045354_000001_000001_000005_000005_000011_000001_000095_000215_000351_000915_001471_000143_004011_003373_019019_031797_085891_033871,
  1_045446_000001_000001_000003_000009_000015_000039_000125_000029_000085_000625_001155_000753_006679_014239_014597_032715_097313_162291,
  1_045458_000001_000001_000001_000007_000013_000047_000127_000069_000199_000145_000123_003207_007673_009991_027501_029189_093027_136881,
  1_045518_000001_000003_000001_000015_000009_000021_000121_000023_000457_000315_000437_001919_005531_013817_008883_004421_019487_088591,
  1_045566_000001_000003_000001_000009_000015_000049_000101_000027_000011_000283_001277_000971_007697_005915_012709_038251_088165_261609,
  1_045569_000001_000001_000003_000009_000017_000019_000053_000131_000327_000917_000603_002451_003597_014731_009223_029719_113507_069875,
  1_045575_000001_000001_000005_000007_000001_000003_000077_000071_000149_000901_000283_001599_001053_016305_009937_020907_004133_029623,
  1_045576_000001_000001_000003_000009_000025_000063_000101_000255_000397_000233_001111_001583_003431_005245_030209_033201_063859_016551,
  1_045587_000001_000001_000007_000005_000019_000025_000009_000137_000105_000363_000867_000811_005829_012595_018867_061021_019425_099399,
  1_045615_000001_000001_000003_000007_000011_000001_000119_000095_000367_000239_001677_000067_000283_005701_003635_026917_112895_224049,
  1_045661_000001_000003_000005_000011_000013_000033_000011_000191_000305_000551_000159_001953_004231_000811_008711_041291_110917_176177,
  1_045798_000001_000003_000005_000009_000015_000003_000027_000029_000077_000881_000849_001113_007151_003433_011199_038409_098173_021373]

def dirRows18_1_1 : List Nat := [
  1_045829_000001_000001_000005_000013_000025_000057_000081_000169_000215_000379_001707_000493_001071_004869_019149_024585_061803_149305,
  1_045847_000001_000001_000005_000011_000013_000011_000009_000045_000207_000347_001203_000185_003919_003119_027879_050793_018499_109239,
  1_045858_000001_000001_000001_000005_000003_000023_000123_000175_000445_000439_000215_001883_006857_014837_029411_033633_096241_068361,
  1_045864_000001_000001_000005_000007_000031_000053_000019_000041_000477_000203_001133_001471_005067_003875_030655_009207_024835_022019,
  1_045899_000001_000003_000001_000011_000019_000009_000091_000217_000135_000169_000489_000727_005471_002125_020867_019689_078859_222433,
  1_045904_000001_000001_000001_000013_000005_000037_000037_000039_000397_000527_000789_001447_007123_006099_016849_048895_095543_056135,
  1_045919_000001_000003_000007_000007_000015_000031_000081_000165_000031_000867_001879_001161_003651_005167_012855_060195_085611_191791,
  1_045974_000001_000001_000001_000009_000031_000035_000019_000123_000281_000445_000063_002683_007073_001489_009791_040125_043723_103765,
  1_045987_000001_000003_000003_000009_000023_000031_000113_000241_000149_000463_001047_003737_008105_016295_004565_008095_016617_087455,
  1_045989_000001_000003_000005_000015_000001_000047_000029_000077_000027_001013_001091_003657_000835_000563_007139_058839_092697_114523,
  1_046008_000001_000003_000001_000001_000005_000049_000087_000251_000473_000583_002033_000809_005341_015835_000691_057133_075751_127717,
  1_046036_000001_000003_000001_000011_000023_000051_000095_000167_000073_000739_000573_001113_007585_005457_025767_005583_029583_048263,
  1_046039_000001_000001_000003_000005_000009_000059_000001_000235_000017_000973_001987_003629_001739_006419_029943_044963_063943_018571,
  1_046043_000001_000003_000007_000011_000009_000037_000025_000253_000307_000411_000891_001977_006979_011287_012619_050327_025831_135673,
  1_046045_000001_000001_000005_000015_000023_000027_000083_000157_000253_000559_001989_002431_004821_006617_004295_016143_000249_109855,
  1_046079_000001_000001_000003_000009_000031_000059_000117_000139_000379_000703_000049_003013_006383_004019_007289_004567_034931_224967,
  1_046084_000001_000001_000001_000003_000003_000033_000049_000127_000177_000417_000723_003259_001547_003297_019733_059465_122179_013209,
  1_046091_000001_000003_000003_000001_000003_000061_000023_000177_000077_000579_001739_002707_005319_013291_010223_045395_062797_124675,
  1_046105_000001_000001_000003_000015_000025_000047_000079_000111_000245_000853_001103_003741_005783_002075_026371_028801_117831_111735,
  1_046117_000001_000001_000005_000011_000003_000047_000043_000061_000075_000963_001507_003491_006031_014171_032557_023779_044815_168409,
  1_046141_000001_000003_000003_000007_000021_000039_000061_000109_000013_000833_000373_004021_004035_007987_018957_010423_082823_008763,
  1_046147_000001_000001_000007_000003_000003_000033_000113_000077_000447_000127_000213_001605_003873_012345_007847_063903_080665_006647,
  1_046162_000001_000003_000001_000005_000025_000011_000049_000233_000377_000791_000043_000195_000393_001403_027567_029673_011327_190513,
  1_046184_000001_000003_000001_000015_000021_000003_000021_000169_000221_000495_001045_003715_004923_002437_023203_059905_070285_258455,
  1_046197_000001_000001_000007_000013_000029_000033_000091_000153_000031_000359_000025_003947_001699_004081_020907_024953_064977_088115,
  1_046207_000001_000001_000005_000011_000017_000007_000017_000129_000091_000835_000139_003823_001827_006787_027367_026801_061513_189677,
  1_046214_000001_000003_000003_000009_000023_000021_000097_000103_000481_000859_000413_000893_004021_008111_023703_018791_102735_082735,
  1_046218_000001_000001_000001_000007_000011_000053_000061_000003_000347_000633_000191_003605_000041_012605_014381_060403_126223_186157,
  1_046237_000001_000003_000005_000001_000011_000033_000061_000235_000245_000623_002019_003289_005761_015557_001685_002173_104825_245139,
  1_046247_000001_000001_000003_000007_000019_000055_000075_000219_000011_000075_001765_001833_000263_006605_026297_024969_017721_109495,
  1_046251_000001_000001_000007_000005_000007_000033_000023_000109_000207_000137_000385_003233_006765_003517_031389_057049_025645_176257,
  1_046327_000001_000001_000005_000005_000027_000063_000065_000023_000093_000721_001665_003805_003611_007543_021119_038565_099921_072773,
  1_046333_000001_000001_000001_000013_000013_000019_000023_000005_000425_000727_001469_001261_006597_000725_027129_036953_025781_191581,
  1_046342_000001_000003_000003_000001_000003_000029_000025_000109_000237_000135_000409_002239_005033_011007_031861_055171_076313_216271,
  1_046366_000001_000003_000007_000013_000031_000033_000011_000031_000179_000067_000755_002513_000037_012863_024053_012315_045009_166643,
  1_046376_000001_000001_000005_000013_000013_000037_000019_000223_000409_000387_000139_003283_000243_015573_024173_063271_091561_168665,
  1_046384_000001_000003_000005_000007_000017_000025_000063_000231_000023_000965_001873_001021_007927_011127_019553_009883_083009_258991,
  1_046404_000001_000003_000001_000007_000017_000021_000071_000065_000165_000845_001739_002395_005959_014803_017333_059003_036477_202511,
  1_046478_000001_000003_000005_000013_000015_000057_000059_000205_000507_000041_000703_000195_004373_004023_013399_062061_043645_204899,
  1_046511_000001_000003_000005_000011_000013_000013_000043_000019_000497_000599_001345_002001_000407_002731_016283_055161_130887_189201,
  1_046540_000001_000001_000007_000005_000013_000003_000105_000083_000235_000363_000869_001715_004031_003419_015149_010627_047787_226107,
  1_046638_000001_000003_000003_000003_000009_000049_000099_000161_000413_000739_000195_002815_001157_009069_015591_004509_030765_184013,
  1_046700_000001_000003_000007_000005_000025_000063_000023_000091_000507_000647_001249_002035_004341_008811_008345_049463_069023_195775,
  1_046706_000001_000003_000005_000005_000005_000021_000117_000001_000321_000495_000251_001961_008043_006593_011017_006167_056607_144009,
  1_046745_000001_000001_000003_000003_000015_000063_000041_000177_000403_000375_001771_000003_007481_004887_000799_059283_106319_032155,
  1_046757_000001_000001_000001_000007_000019_000057_000097_000091_000489_000561_000335_003809_003167_008879_001789_022329_058851_084461,
  1_046772_000001_000003_000003_000011_000003_000023_000079_000025_000187_000497_001343_000543_004495_014599_029365_014795_026341_026923,
  1_046776_000001_000003_000001_000013_000021_000035_000009_000227_000423_000761_000439_003099_005167_012955_012877_005591_123511_074227,
  1_046790_000001_000001_000003_000007_000001_000049_000115_000095_000481_000659_000183_002337_000039_000235_030869_010223_059673_065293,
  1_046794_000001_000001_000001_000013_000011_000029_000113_000037_000153_000993_001195_001695_004741_013671_029097_065023_078281_156235,
  1_046804_000001_000003_000005_000011_000019_000017_000047_000243_000273_000679_000393_004059_000705_012473_001867_013783_086821_240545,
  1_046820_000001_000003_000001_000011_000023_000035_000015_000031_000275_000261_000427_000909_007925_004737_022825_034859_028593_020071,
  1_046849_000001_000003_000001_000001_000013_000001_000115_000115_000103_000063_001023_000815_007007_006063_013329_028051_029807_109861,
  1_046870_000001_000001_000001_000011_000019_000057_000049_000169_000033_000059_000579_002409_000089_009655_018091_057771_034509_175991,
  1_046876_000001_000001_000005_000009_000027_000019_000041_000217_000313_000359_001745_003887_000589_003103_010087_030615_056793_102515,
  1_046903_000001_000003_000007_000011_000025_000043_000101_000245_000067_001003_001379_002141_008025_015231_020705_045513_082251_147295,
  1_046904_000001_000003_000005_000005_000005_000047_000019_000033_000107_000773_000627_004077_005829_006483_025791_035079_103073_201657,
  1_046907_000001_000001_000005_000015_000001_000037_000115_000015_000061_000987_001029_002125_005357_010233_014907_012077_092143_207301,
  1_046932_000001_000001_000007_000007_000003_000015_000095_000003_000393_000535_000819_000743_003613_011459_002269_017083_065547_074813,
  1_046955_000001_000001_000007_000005_000011_000027_000117_000065_000055_000087_000105_003219_001587_000383_025349_054561_011935_101203,
  1_046963_000001_000001_000005_000015_000023_000053_000037_000149_000191_000963_001407_004091_001647_009537_030247_023501_123745_076301,
  1_046991_000001_000003_000001_000001_000021_000031_000011_000107_000055_000823_000805_000141_007177_015883_003307_052245_115171_260589,
  1_047029_000001_000003_000007_000013_000025_000015_000005_000221_000347_000083_000051_001227_004591_000851_010173_037777_082441_175219,
  1_047036_000001_000001_000007_000015_000017_000041_000121_000215_000111_000999_000367_001961_003207_010145_010395_024381_095937_012693,
  1_047054_000001_000001_000001_000011_000023_000027_000117_000255_000087_000519_000599_003471_003983_002797_013477_056479_027321_101585,
  1_047099_000001_000001_000005_000009_000001_000003_000035_000015_000457_000209_000141_001295_001631_009745_030247_044865_078113_013207,
  1_047106_000001_000003_000003_000001_000027_000063_000029_000031_000277_000173_001321_003847_004127_008713_010507_008697_097025_105995,
  1_047132_000001_000001_000005_000013_000013_000047_000033_000069_000113_000369_000539_004075_001013_009733_009291_033377_130567_238331,
  1_047145_000001_000003_000007_000013_000015_000015_000125_000219_000205_000763_001233_001911_007733_007623_027305_006067_016169_238805,
  1_047151_000001_000003_000001_000009_000023_000017_000035_000175_000157_000627_001045_001791_001675_011699_002151_028293_014529_030523,
  1_047156_000001_000001_000005_000009_000005_000001_000023_000151_000295_000949_000371_003317_002557_005815_009699_048379_104561_103747,
  1_047171_000001_000003_000005_000005_000011_000057_000125_000247_000029_000257_000979_002437_004391_008229_011231_030145_111165_092347,
  1_047188_000001_000001_000003_000003_000027_000017_000071_000071_000357_000367_001213_002549_006049_015299_002891_021839_109889_034643,
  1_047201_000001_000001_000001_000011_000007_000021_000041_000077_000249_000567_001947_002989_000875_012975_023599_049313_067213_098415,
  1_047219_000001_000001_000007_000007_000027_000051_000103_000221_000295_000247_001579_002435_000067_003087_009421_059573_111143_042363,
  1_047226_000001_000001_000001_000013_000027_000027_000075_000033_000081_000841_001295_002823_000997_016329_006117_043361_063727_113347,
  1_047241_000001_000001_000001_000003_000019_000007_000043_000093_000397_000293_000803_003021_003915_001417_022255_038529_053737_133705,
  1_047252_000001_000003_000003_000013_000001_000033_000001_000235_000255_000345_001621_000315_002685_006451_007133_000239_103075_175033,
  1_047261_000001_000003_000001_000011_000029_000047_000061_000115_000395_000633_001913_002983_004581_003729_022511_016479_080607_232859,
  1_047295_000001_000003_000007_000007_000027_000025_000029_000121_000511_000533_001791_003349_004915_008213_013913_006595_002353_207495,
  1_047297_000001_000003_000007_000005_000021_000025_000077_000189_000473_001015_001455_001923_003281_015163_002329_058529_055369_195007,
  1_047333_000001_000003_000001_000001_000025_000037_000117_000041_000207_000413_000143_001707_007463_015399_003013_004141_037669_070953,
  1_047337_000001_000003_000005_000003_000031_000061_000041_000157_000141_000387_001705_001661_003607_006905_003305_063235_007977_253707,
  1_047360_000001_000001_000005_000011_000029_000015_000061_000127_000417_000795_000171_000415_007935_004553_029979_021153_108811_219959,
  1_047377_000001_000001_000005_000011_000017_000061_000003_000009_000297_000053_000933_000341_000507_002683_015313_024113_078617_191127,
  1_047378_000001_000001_000007_000015_000005_000057_000065_000187_000015_000541_001843_000731_007331_002479_026259_032685_125259_108693,
  1_047384_000001_000001_000007_000007_000011_000015_000033_000183_000225_000609_001755_003531_002767_006267_030823_036797_059699_136769,
  1_047389_000001_000003_000005_000013_000015_000019_000077_000239_000307_000691_001165_001327_007901_009299_007777_039151_096261_079791,
  1_047417_000001_000001_000003_000005_000029_000031_000085_000109_000381_000243_000955_000193_003461_005163_018607_051143_074457_084685,
  1_047420_000001_000001_000005_000009_000011_000023_000077_000247_000149_000759_001153_001781_004107_016315_015513_048545_055607_163947,
  1_047426_000001_000003_000003_000005_000021_000027_000057_000061_000075_000943_000097_001507_004091_000671_023023_049095_061649_222401,
  1_047443_000001_000001_000003_000013_000001_000003_000015_000105_000285_000255_000577_001347_002917_010257_021607_063041_079823_006447,
  1_047504_000001_000001_000003_000001_000017_000025_000109_000047_000445_000225_001729_002835_004569_008755_021847_025839_043503_173599,
  1_047507_000001_000001_000005_000015_000019_000001_000121_000119_000033_000077_001147_000359_005747_002785_015567_005409_125979_199183,
  1_047510_000001_000003_000001_000009_000017_000045_000085_000083_000427_000223_000531_001681_002343_014959_027297_054607_070889_045529,
  1_047526_000001_000001_000005_000011_000031_000061_000109_000195_000505_000197_000159_002799_004517_011549_010297_017415_058277_206577,
  1_047550_000001_000001_000003_000005_000017_000043_000107_000207_000453_000161_001775_001287_005775_012417_014201_048187_075073_121099,
  1_047552_000001_000001_000005_000007_000031_000027_000067_000251_000127_000443_000263_000895_008081_014053_032023_054743_014723_221285,
  1_047557_000001_000003_000003_000013_000027_000045_000051_000047_000243_000015_001283_002291_003613_014733_008777_003959_036769_104789,
  1_047564_000001_000003_000005_000001_000005_000031_000001_000139_000411_000079_000959_001431_002329_003595_019231_055747_018923_223709]

def dirRows18_1_2 : List Nat := [
  1_047591_000001_000003_000001_000001_000007_000009_000069_000201_000305_000411_000459_003201_002525_006977_016249_017777_114321_243831,
  1_047610_000001_000003_000003_000005_000013_000007_000003_000027_000201_000279_001253_001725_001481_008885_001233_040699_007267_189095,
  1_047621_000001_000003_000005_000005_000031_000061_000053_000231_000093_000597_002027_002179_004517_000565_027807_005447_130341_010411,
  1_047639_000001_000001_000007_000001_000009_000017_000063_000245_000405_000023_001647_000285_006625_008935_000959_029095_000657_185511,
  1_047646_000001_000001_000007_000007_000005_000015_000049_000069_000479_000585_000437_001097_005933_001709_026169_036895_016981_147033,
  1_047676_000001_000003_000007_000013_000029_000019_000089_000249_000195_000687_000379_001291_004791_009039_006381_012965_099995_105107,
  1_047682_000001_000001_000005_000007_000013_000049_000101_000217_000205_000635_000577_003301_000911_001793_022285_020163_022593_045701,
  1_047732_000001_000003_000007_000009_000003_000021_000055_000123_000205_000309_000059_003739_001625_000839_026733_027443_006699_244287,
  1_047741_000001_000001_000001_000011_000029_000003_000033_000057_000481_000691_001401_003595_005435_000571_006945_010911_094721_089751,
  1_047751_000001_000001_000003_000005_000021_000019_000023_000169_000263_000137_000771_001995_002211_006287_018691_014219_065647_089885,
  1_047757_000001_000001_000003_000007_000007_000053_000009_000155_000327_000325_000301_003703_001069_015573_014873_015665_071617_005079,
  1_047786_000001_000003_000001_000003_000027_000015_000001_000203_000465_000629_000071_001093_002071_007743_022441_042997_035249_113329,
  1_047803_000001_000003_000005_000003_000021_000035_000107_000073_000247_000575_000719_003215_003181_005861_025169_006503_012347_196371,
  1_047828_000001_000003_000001_000003_000007_000029_000117_000115_000221_000345_000165_001367_001491_015791_012647_034679_001043_219311,
  1_047848_000001_000003_000005_000007_000019_000047_000065_000065_000101_000323_001209_003185_003803_001077_018933_017081_007475_165133,
  1_047853_000001_000001_000007_000001_000025_000009_000061_000245_000175_000201_001837_002119_000943_014043_014343_046299_081151_005587,
  1_047856_000001_000001_000001_000001_000031_000027_000049_000089_000387_000975_001203_002995_002969_001465_000925_039611_038101_126043,
  1_047862_000001_000003_000007_000013_000021_000017_000045_000139_000359_000011_000335_000079_006629_006137_007879_062735_099493_138943,
  1_047874_000001_000003_000005_000005_000009_000023_000091_000195_000089_000195_001931_003855_000387_003491_029643_059939_032347_171539,
  1_047883_000001_000003_000003_000015_000021_000055_000005_000013_000139_000125_001731_003131_001927_016051_008351_018625_032465_255813,
  1_047916_000001_000003_000007_000011_000021_000045_000053_000225_000033_000733_000115_000639_004801_005529_011041_003557_083521_037525,
  1_047934_000001_000003_000007_000015_000003_000037_000111_000127_000463_000565_000543_002593_002203_005719_011667_063735_016481_155613,
  1_047951_000001_000001_000003_000013_000031_000001_000017_000053_000479_000629_001517_000089_003377_004831_009213_055029_069547_052363,
  1_047979_000001_000001_000007_000001_000005_000047_000115_000073_000059_000407_001227_002955_005249_007921_004713_028699_041455_001161,
  1_048010_000001_000001_000007_000007_000005_000007_000039_000007_000097_000867_000247_000639_003125_014961_019737_052589_059821_096095,
  1_048027_000001_000001_000007_000005_000011_000051_000063_000245_000385_001003_000189_004039_006137_003621_013241_055753_014855_050221,
  1_048046_000001_000003_000005_000003_000009_000061_000083_000209_000301_000917_000259_000187_006253_001579_028285_016571_100945_158067,
  1_048060_000001_000003_000005_000011_000005_000047_000123_000173_000253_000183_001823_000459_004719_013639_008455_012217_088779_134863,
  1_048065_000001_000001_000001_000005_000001_000045_000043_000163_000371_000427_001791_001073_001615_014473_015895_004971_105269_109201,
  1_048075_000001_000003_000001_000015_000011_000009_000099_000099_000025_000021_001499_000083_006967_012923_013623_027423_004707_000477,
  1_048096_000001_000001_000003_000005_000015_000049_000045_000027_000051_000391_001849_000347_006841_002831_004425_040701_061135_116945,
  1_048119_000001_000001_000003_000007_000021_000023_000015_000223_000403_000395_001997_003247_006345_011739_006511_044323_086667_213287,
  1_048173_000001_000003_000007_000011_000031_000021_000075_000129_000427_000777_001787_004031_001493_002279_010681_036675_025527_123533,
  1_048176_000001_000003_000005_000015_000009_000005_000117_000147_000259_000265_001817_000583_005341_012115_002369_004023_123479_218877,
  1_048186_000001_000001_000001_000015_000005_000021_000087_000057_000487_000529_001129_002989_000039_005995_028779_035813_097425_005227,
  1_048213_000001_000001_000007_000003_000007_000001_000041_000231_000195_000205_001663_003149_004439_008241_003085_043965_058833_216779,
  1_048223_000001_000001_000003_000001_000023_000045_000065_000003_000055_000653_000131_002425_005653_009105_016921_055221_029241_220927,
  1_048224_000001_000003_000001_000003_000005_000047_000107_000049_000175_000957_001287_001299_005215_004141_031697_009371_043339_133933,
  1_048229_000001_000003_000001_000007_000013_000055_000033_000163_000361_000793_000101_002159_003457_012893_011627_027115_095201_002945,
  1_048241_000001_000001_000007_000015_000011_000039_000079_000113_000385_000041_001715_003887_001347_008141_006121_018653_050867_055745,
  1_048281_000001_000001_000007_000013_000003_000005_000023_000059_000223_000665_001823_002989_001069_015161_008917_005539_047437_240933,
  1_048284_000001_000003_000007_000013_000013_000019_000073_000025_000413_000211_000439_000339_001159_016063_009589_033451_028789_118883,
  1_048291_000001_000001_000005_000011_000013_000061_000081_000063_000197_000569_000961_000253_002065_008969_024045_052811_026929_111329,
  1_048308_000001_000003_000007_000005_000019_000023_000027_000163_000037_000103_001737_000175_001853_000597_014147_046159_026385_069427,
  1_048340_000001_000003_000007_000009_000027_000043_000045_000209_000061_000115_000645_001149_001473_010557_008541_051703_029207_092059,
  1_048344_000001_000001_000005_000005_000025_000053_000123_000243_000493_000403_000485_001505_006879_001921_013569_028271_024407_073057,
  1_048368_000001_000001_000003_000011_000015_000031_000099_000029_000503_000819_000055_000773_002993_015341_007625_012835_028555_200609,
  1_048400_000001_000001_000007_000009_000021_000049_000047_000207_000013_000571_000057_001727_007441_001703_004253_064851_000113_180273,
  1_048406_000001_000003_000003_000009_000023_000001_000001_000053_000195_000569_000925_001969_003031_014371_017673_039163_011819_117573,
  1_048409_000001_000001_000001_000011_000005_000003_000103_000133_000447_001015_001049_003283_007507_000233_013721_050721_075511_227561,
  1_048421_000001_000003_000001_000001_000017_000059_000079_000105_000503_000173_001575_001563_005807_012841_007983_028209_027527_229919,
  1_048448_000001_000001_000003_000009_000003_000041_000125_000213_000361_000939_000161_002235_002575_013519_007957_021527_040693_051055,
  1_048453_000001_000003_000007_000011_000011_000007_000117_000021_000007_000745_001109_003393_000953_005163_019909_049121_085061_209555,
  1_048457_000001_000001_000007_000005_000027_000059_000127_000199_000119_000461_000653_000497_005867_000767_016373_021201_087589_171491,
  1_048478_000001_000001_000007_000011_000007_000021_000121_000097_000017_000827_001191_000113_006527_014977_032567_015191_104541_140359,
  1_048493_000001_000001_000007_000013_000019_000029_000127_000207_000233_000511_000043_003177_007963_005559_024185_013373_037853_150537,
  1_048527_000001_000003_000003_000009_000015_000017_000119_000201_000443_000051_000017_000605_004191_005251_028903_004861_092571_143499,
  1_048583_000001_000001_000005_000011_000021_000045_000111_000245_000115_000705_001267_003013_007907_014973_030499_044117_118229_136571,
  1_048597_000001_000003_000007_000007_000031_000035_000069_000143_000269_000027_001365_000775_006067_011477_028475_054573_092827_226459,
  1_048641_000001_000001_000005_000001_000001_000029_000041_000189_000423_000245_001031_001667_003465_001491_026787_053851_026189_215443,
  1_048668_000001_000003_000003_000005_000023_000029_000097_000141_000135_000249_000767_003627_007867_009311_025411_038325_118643_128453,
  1_048671_000001_000003_000007_000013_000003_000025_000061_000121_000285_000401_001099_002327_005509_016127_002363_052395_114233_216013,
  1_048682_000001_000001_000001_000013_000007_000037_000083_000151_000447_000605_000289_002941_006273_005945_007493_029805_034935_101177,
  1_048709_000001_000001_000007_000013_000031_000051_000125_000009_000321_000293_000489_004023_002425_007645_002927_020973_111223_071255,
  1_048719_000001_000001_000007_000003_000027_000009_000059_000143_000307_000543_001995_000111_005807_004641_003581_002421_064213_187567,
  1_048731_000001_000003_000003_000009_000023_000033_000047_000081_000441_000995_000213_003501_001003_009885_024101_058767_049507_030525,
  1_048780_000001_000003_000001_000003_000019_000051_000117_000053_000049_000167_001799_001421_002473_003183_014421_058621_130703_048095,
  1_048791_000001_000001_000007_000007_000005_000025_000033_000237_000447_000377_000517_002047_004357_002747_016491_023935_021655_144151,
  1_048797_000001_000001_000007_000007_000017_000005_000057_000067_000089_000897_001163_003517_001651_006745_023449_002853_043829_050707,
  1_048807_000001_000001_000001_000013_000005_000045_000087_000139_000339_001021_000649_002957_007887_011957_011235_011063_077329_093121,
  1_048811_000001_000001_000001_000007_000011_000035_000073_000241_000011_000287_000551_000207_004701_002031_027191_044337_035577_226387,
  1_048814_000001_000003_000005_000011_000019_000003_000041_000211_000029_000913_001455_002525_003935_005581_008043_012033_097479_073521,
  1_048821_000001_000003_000005_000007_000015_000049_000053_000185_000229_000161_000121_003407_000903_007257_019535_042197_003983_222077,
  1_048836_000001_000001_000005_000007_000017_000033_000061_000121_000343_000111_000151_001147_003743_002423_024151_042307_050711_140317,
  1_048846_000001_000003_000003_000007_000027_000001_000119_000209_000243_000185_001253_002307_007659_007839_009697_016799_005189_130005,
  1_048848_000001_000003_000003_000001_000027_000021_000115_000175_000157_000735_001233_001133_001763_001125_004667_042569_125185_218417,
  1_048854_000001_000003_000005_000009_000005_000037_000097_000165_000087_000447_001491_003141_000597_010651_009727_065163_002469_141859,
  1_048874_000001_000001_000005_000013_000011_000053_000111_000123_000423_000413_001519_003715_006623_015415_024085_020925_001529_085183,
  1_048908_000001_000003_000007_000001_000031_000045_000093_000045_000363_000779_000443_003687_006051_011683_031733_057251_055087_240877,
  1_048929_000001_000001_000001_000015_000001_000017_000053_000237_000131_000673_001919_001531_007455_005043_001709_023375_075657_194393,
  1_048941_000001_000003_000005_000009_000021_000003_000101_000141_000387_000887_001329_002627_002865_002685_020273_018901_043805_181049,
  1_048954_000001_000003_000005_000005_000007_000049_000055_000243_000311_000653_000959_003157_004891_008777_014381_028105_119323_181129,
  1_048961_000001_000001_000001_000009_000017_000033_000097_000123_000071_000005_000793_002829_004385_008577_009927_026213_053287_203555,
  1_048962_000001_000001_000001_000009_000015_000061_000051_000031_000195_001003_001915_002349_005319_013411_015265_036321_076157_200437,
  1_048985_000001_000003_000001_000013_000019_000041_000011_000227_000447_000395_001885_002953_003537_003855_021611_014547_106573_233205,
  1_049001_000001_000003_000001_000011_000001_000001_000007_000061_000069_000631_001687_001131_006901_005801_014431_017807_035777_253941,
  1_049007_000001_000003_000005_000009_000015_000047_000071_000145_000419_000401_001781_002031_003157_014483_002393_004061_122053_081701,
  1_049015_000001_000003_000007_000013_000023_000021_000067_000147_000137_000277_000259_003119_004785_005349_003193_021805_108265_231111,
  1_049035_000001_000001_000003_000009_000023_000063_000077_000153_000075_000643_001341_003607_006001_003387_017485_017893_124699_099515,
  1_049062_000001_000001_000007_000011_000009_000051_000079_000255_000255_000723_001797_002805_002505_003437_004835_030731_073741_008051,
  1_049066_000001_000001_000005_000007_000005_000019_000073_000075_000019_000889_001443_002263_005773_009997_000329_046679_082313_130897,
  1_049085_000001_000003_000003_000009_000007_000053_000069_000011_000287_000861_001367_001433_002693_016255_006785_024705_077463_231247,
  1_049091_000001_000001_000003_000007_000021_000015_000115_000131_000169_000447_001731_002873_000119_000643_031719_022193_017959_150567,
  1_049094_000001_000003_000003_000009_000023_000021_000007_000039_000185_000837_000379_003687_003751_014801_015231_007239_077521_080135,
  1_049127_000001_000001_000001_000001_000007_000033_000093_000247_000487_000873_001951_003273_000551_003735_029477_062387_030361_145613,
  1_049134_000001_000001_000003_000007_000005_000047_000017_000031_000093_000517_001175_001033_007421_000075_000541_001967_013059_104751,
  1_049183_000001_000003_000005_000003_000019_000023_000123_000115_000099_000747_000655_002885_002991_007497_005989_033419_054363_224947,
  1_049221_000001_000003_000003_000001_000015_000009_000051_000003_000307_000879_001065_001835_002267_011299_021995_002997_102207_000039,
  1_049231_000001_000003_000005_000003_000009_000019_000019_000079_000499_000121_000951_001151_000379_005299_013727_049061_032605_208683,
  1_049250_000001_000003_000007_000007_000023_000041_000071_000023_000493_000969_000271_003729_006199_014693_017625_052509_121257_151175]

def dirRows18_1_3 : List Nat := [
  1_049252_000001_000001_000007_000015_000009_000051_000061_000009_000147_000527_000803_003255_000723_003241_023961_017497_122569_050863,
  1_049270_000001_000003_000005_000001_000019_000019_000031_000031_000095_000667_000377_001193_006759_008583_029801_007989_113899_043481,
  1_049297_000001_000003_000007_000005_000017_000047_000001_000007_000305_000489_001035_001335_005901_009635_010433_004235_108577_052661,
  1_049313_000001_000001_000007_000003_000015_000007_000105_000189_000429_000287_000679_000111_002087_008479_003053_021763_065655_016207,
  1_049340_000001_000003_000005_000013_000019_000041_000045_000115_000311_000653_001301_003797_006183_007203_009829_013263_071649_255611,
  1_049365_000001_000003_000001_000009_000021_000033_000019_000233_000083_000423_001701_000347_003999_011885_019699_061931_063895_059615,
  1_049379_000001_000001_000007_000007_000015_000019_000061_000043_000183_000223_001135_003099_003137_016181_031019_020151_030169_013125,
  1_049386_000001_000001_000001_000011_000009_000011_000003_000157_000495_000207_000603_001919_003565_007639_004281_049179_002465_224033,
  1_049391_000001_000003_000001_000013_000013_000019_000127_000081_000475_000659_001053_003153_005223_012567_030945_047109_098253_041571,
  1_049417_000001_000001_000005_000011_000019_000001_000009_000067_000501_000149_001695_001265_006467_005285_029865_046777_097581_209395,
  1_049438_000001_000001_000001_000011_000021_000023_000123_000103_000419_000787_000111_003327_000673_003425_008097_002411_107353_121379,
  1_049444_000001_000001_000003_000003_000017_000007_000087_000035_000501_000973_000351_000751_004813_012245_003053_038633_044995_037151,
  1_049453_000001_000003_000005_000015_000007_000057_000099_000053_000003_000355_000153_003897_006923_002075_010821_041819_075665_021237,
  1_049454_000001_000003_000005_000009_000003_000029_000085_000115_000191_000977_001067_001539_005287_003589_018017_035571_041633_148565,
  1_049480_000001_000001_000003_000009_000009_000057_000001_000063_000333_000107_001173_003377_003599_000277_020643_019295_091169_168891,
  1_049485_000001_000001_000005_000013_000021_000007_000055_000015_000079_000995_001553_000949_006357_008137_009539_000861_095635_063021,
  1_049498_000001_000001_000005_000013_000031_000059_000011_000055_000159_000449_000307_002725_002305_008259_013823_051225_044775_054253,
  1_049513_000001_000003_000003_000015_000019_000061_000105_000019_000211_000693_000835_003607_003703_014007_024597_047109_049855_166115,
  1_049527_000001_000003_000001_000009_000027_000033_000081_000229_000445_000171_000247_002019_005227_008759_030155_001851_026909_047145,
  1_049531_000001_000001_000003_000005_000023_000001_000057_000049_000177_000451_001283_003859_004719_013507_029439_009155_129585_094713,
  1_049564_000001_000003_000003_000005_000001_000009_000037_000023_000423_000611_000113_000119_004307_011747_000093_051213_005479_172061,
  1_049588_000001_000003_000003_000015_000005_000035_000009_000043_000423_000877_001563_003411_004233_006961_022421_007347_039553_199745,
  1_049609_000001_000003_000001_000009_000015_000035_000085_000057_000151_000323_001627_000027_003603_011475_006561_006091_072099_185321,
  1_049617_000001_000001_000003_000015_000017_000021_000003_000119_000455_000147_001077_003955_001355_003083_028217_050745_114445_046563,
  1_049645_000001_000001_000005_000003_000013_000011_000035_000185_000357_000447_000649_000139_002847_012011_007753_000671_113693_236281,
  1_049646_000001_000003_000005_000001_000019_000027_000117_000195_000067_000259_001073_000081_005527_006829_026675_060029_008159_013553,
  1_049654_000001_000003_000003_000007_000027_000063_000115_000191_000431_000191_001547_002261_006527_013459_012773_037485_114847_061709,
  1_049697_000001_000001_000003_000001_000029_000063_000047_000077_000415_000191_000325_002487_007457_013721_001573_015037_031941_226651,
  1_049718_000001_000001_000005_000011_000029_000059_000049_000209_000195_000901_000691_003167_007471_011609_030135_022067_071395_248151,
  1_049741_000001_000003_000007_000011_000007_000043_000055_000069_000289_000735_001479_000139_001395_006463_019827_052151_018963_103367,
  1_049754_000001_000003_000005_000005_000027_000045_000077_000079_000089_000079_000913_001437_003337_008861_005477_046195_105869_242599,
  1_049756_000001_000003_000005_000003_000003_000027_000103_000207_000233_000995_001173_001143_003517_003207_008373_045145_079687_150107,
  1_049833_000001_000003_000007_000003_000007_000037_000001_000137_000045_000479_000861_003863_004249_003075_023639_012531_118473_255805,
  1_049834_000001_000001_000001_000009_000007_000023_000125_000057_000347_000215_001749_003029_000097_014715_016213_029291_104725_092043,
  1_049879_000001_000003_000003_000015_000031_000039_000111_000097_000369_000675_001471_003889_006437_001499_013325_046141_121087_202493,
  1_049942_000001_000001_000001_000015_000015_000021_000003_000167_000251_000793_001291_000427_006407_015521_015441_020071_054513_200485,
  1_049946_000001_000001_000007_000011_000027_000047_000123_000195_000241_000385_000609_002323_001221_000815_000279_028553_017663_180977,
  1_049982_000001_000001_000003_000015_000023_000053_000021_000019_000329_000903_000561_001539_002829_013037_029867_027825_084005_014853,
  1_049994_000001_000001_000005_000001_000021_000027_000103_000099_000031_000829_000515_003949_003635_000935_002127_056659_123477_047003,
  1_050001_000001_000003_000001_000011_000017_000063_000051_000015_000319_000539_000055_002561_001109_016115_023387_020051_120867_004019,
  1_050023_000001_000003_000003_000007_000031_000011_000045_000251_000209_000021_000553_000887_000393_015183_014735_013163_123681_015013,
  1_050047_000001_000003_000001_000007_000021_000041_000105_000039_000213_000477_000985_002375_000937_007099_008867_036519_060503_143225,
  1_050120_000001_000003_000001_000001_000019_000055_000073_000171_000379_000271_000791_002477_005381_001703_003805_037227_055553_034549,
  1_050133_000001_000001_000005_000005_000029_000051_000127_000111_000209_000663_000975_002293_008155_011263_007891_015463_074889_227403,
  1_050137_000001_000003_000005_000001_000015_000001_000115_000221_000023_000247_001597_000087_007513_003329_014491_008961_078147_089499,
  1_050140_000001_000003_000005_000015_000025_000023_000099_000085_000189_000487_001559_000427_006179_005291_027279_065507_077347_177073,
  1_050156_000001_000003_000007_000001_000023_000035_000007_000089_000455_000659_002039_003115_004057_000139_001269_062319_013629_201571,
  1_050199_000001_000001_000001_000005_000009_000047_000055_000171_000213_000813_000135_001545_001421_004055_026697_018889_057653_201369,
  1_050205_000001_000003_000001_000011_000009_000045_000005_000069_000261_000907_001229_001371_001867_001771_017309_041759_119129_043521,
  1_050215_000001_000001_000007_000005_000011_000027_000009_000237_000405_000053_001359_003665_000169_003547_023331_014353_106627_219711,
  1_050216_000001_000003_000003_000005_000017_000023_000009_000041_000081_000601_001447_003225_006721_000161_016109_054331_111273_081061,
  1_050224_000001_000001_000005_000007_000007_000037_000071_000013_000505_000671_000425_002771_001131_001259_013715_045779_114839_217499,
  1_050229_000001_000001_000001_000005_000009_000051_000085_000223_000117_000403_001117_000723_002465_011947_007495_062991_017825_169147,
  1_050233_000001_000001_000003_000013_000005_000057_000047_000035_000313_000901_000365_001265_000137_006335_031419_038497_093285_177187,
  1_050251_000001_000003_000005_000005_000007_000009_000021_000109_000047_000557_001449_003459_005175_005135_000727_055425_060593_086571,
  1_050281_000001_000003_000007_000005_000001_000017_000119_000239_000347_000075_001345_002765_001491_016297_025233_060401_085433_059287,
  1_050326_000001_000001_000005_000005_000019_000057_000041_000053_000161_000475_001791_003617_001651_015227_030357_063547_069937_246473,
  1_050332_000001_000003_000007_000011_000011_000043_000079_000079_000195_000437_000039_001259_006041_014989_006615_058747_043583_246979,
  1_050348_000001_000001_000007_000009_000011_000013_000049_000133_000365_000931_001089_000713_005997_008759_005789_061329_022639_149845,
  1_050359_000001_000003_000007_000013_000009_000003_000011_000253_000339_000883_001933_000443_004265_014165_015845_012625_001453_070961,
  1_050374_000001_000001_000007_000013_000021_000035_000113_000083_000473_000719_001601_001727_003715_000631_028075_017725_011393_116883,
  1_050404_000001_000003_000007_000007_000007_000013_000117_000083_000365_000529_001297_003903_002633_009617_015819_038137_049065_189445,
  1_050443_000001_000001_000001_000007_000011_000041_000107_000033_000381_000395_001993_002819_003301_007543_006787_027437_113681_132403,
  1_050488_000001_000001_000001_000001_000003_000059_000091_000235_000067_000987_001587_001119_005851_013201_001125_049709_000381_183295,
  1_050493_000001_000003_000005_000009_000003_000033_000045_000187_000455_000151_000823_000565_005725_001927_025387_061785_130271_134083,
  1_050505_000001_000001_000007_000005_000015_000025_000063_000231_000133_000401_000307_002961_004249_002639_010207_008349_008203_072783,
  1_050511_000001_000001_000005_000013_000019_000027_000043_000153_000165_000815_001385_003041_000853_007683_001035_013255_069779_128765,
  1_050525_000001_000001_000001_000003_000031_000061_000097_000015_000327_000717_000841_000643_004781_011609_014181_014625_075369_251015,
  1_050542_000001_000001_000005_000011_000017_000033_000009_000045_000111_000091_001923_000967_005649_013647_030497_002925_018395_255089,
  1_050550_000001_000003_000003_000001_000003_000055_000033_000029_000101_000211_001731_002351_007389_014935_029703_060031_122305_174323,
  1_050560_000001_000001_000001_000003_000013_000023_000079_000117_000367_000267_000143_001537_003159_002303_009653_012029_002841_226971,
  1_050570_000001_000001_000001_000013_000019_000057_000103_000159_000315_000895_001879_002153_001901_007635_014145_056495_006203_151203,
  1_050587_000001_000003_000003_000011_000031_000011_000075_000005_000419_000963_001809_003751_007291_012697_002841_017965_091707_080361,
  1_050593_000001_000001_000007_000007_000005_000023_000029_000199_000413_000501_000019_000697_006523_003997_004945_059817_127613_220399,
  1_050611_000001_000001_000007_000005_000001_000017_000051_000009_000183_000689_000325_002391_002095_001907_010325_051045_020097_033719,
  1_050649_000001_000003_000005_000011_000003_000033_000045_000221_000325_000007_000253_001323_004959_014067_010035_039463_123171_194581,
  1_050656_000001_000001_000003_000003_000015_000045_000025_000057_000357_000907_001249_003279_002631_009209_007857_058233_029049_173859,
  1_050685_000001_000003_000003_000009_000029_000039_000105_000055_000295_000583_000825_001777_002403_009489_009079_024855_018155_252733,
  1_050686_000001_000001_000005_000015_000005_000063_000077_000215_000287_000743_001937_002103_002673_015487_027855_046683_120215_089721,
  1_050692_000001_000003_000003_000005_000027_000001_000045_000019_000309_000679_001405_000415_006107_013567_005803_061941_130285_051847,
  1_050702_000001_000003_000001_000015_000023_000049_000047_000113_000401_000825_001299_002711_006509_012225_016147_020615_121305_121937,
  1_050704_000001_000003_000005_000005_000031_000041_000031_000057_000385_000919_000593_001371_006773_012099_023767_017663_128321_188921,
  1_050709_000001_000001_000003_000015_000005_000041_000017_000007_000479_000143_000549_001827_008107_014775_028817_012297_119893_191297,
  1_050720_000001_000003_000007_000005_000029_000061_000027_000123_000269_000223_000121_001745_003513_001989_009759_008129_078933_040085,
  1_050726_000001_000001_000005_000013_000023_000049_000125_000225_000479_000123_000041_002359_004443_004729_031717_003139_003869_118803,
  1_050729_000001_000003_000003_000003_000015_000007_000007_000087_000415_000095_001799_002009_004711_015635_021997_047201_016815_099815,
  1_050737_000001_000003_000003_000001_000031_000057_000073_000031_000423_000363_001469_002411_006449_015275_014189_051079_130201_130181,
  1_050758_000001_000001_000005_000003_000003_000031_000107_000011_000355_000647_001463_003019_003263_013727_010461_026577_004439_132737,
  1_050772_000001_000001_000001_000007_000013_000055_000031_000227_000071_000563_001467_003733_000725_003443_019279_004111_035749_062275,
  1_050849_000001_000003_000003_000015_000009_000017_000061_000095_000043_000583_001381_001285_002655_009213_027551_016237_029569_216879,
  1_050850_000001_000001_000001_000003_000029_000003_000087_000193_000053_000599_001581_000907_004381_008697_027299_040259_122653_043559,
  1_050881_000001_000003_000005_000003_000015_000049_000021_000027_000035_000353_001281_003253_007339_009333_025253_035035_030379_087387,
  1_050901_000001_000001_000001_000015_000007_000027_000069_000041_000045_000729_001005_003495_001445_007421_027443_029609_070105_093883,
  1_050906_000001_000001_000007_000007_000001_000041_000015_000149_000107_000121_000639_003703_003397_001727_014165_002845_078531_175767,
  1_050915_000001_000003_000007_000015_000027_000017_000121_000175_000399_000551_001889_002283_004343_003633_000653_003267_101901_162157,
  1_050961_000001_000003_000003_000015_000023_000041_000097_000251_000435_000955_000069_000509_008001_011783_007397_007587_127089_015391,
  1_050992_000001_000003_000005_000005_000025_000025_000063_000025_000203_000655_002039_002545_005405_001377_030543_065531_122825_006853,
  1_050997_000001_000001_000007_000009_000009_000043_000073_000195_000465_000497_001085_003821_007115_007513_021913_032499_096467_181905,
  1_051001_000001_000001_000003_000007_000029_000029_000063_000131_000409_000423_000687_002549_007367_006867_002685_029137_061845_194409,
  1_051004_000001_000003_000007_000007_000003_000023_000047_000031_000121_000629_001771_002387_000861_002269_029565_019599_018051_121531]

def dirRows18_1_4 : List Nat := [
  1_051033_000001_000001_000001_000003_000021_000013_000109_000105_000163_000433_000521_003467_006225_003705_030605_003265_119313_002535,
  1_051045_000001_000003_000005_000003_000025_000025_000089_000177_000415_000067_000361_003317_006411_004857_023249_041959_059931_035797,
  1_051052_000001_000003_000007_000015_000005_000037_000037_000065_000071_000013_001621_002217_003723_002113_023755_046521_048091_044307,
  1_051064_000001_000001_000005_000013_000005_000005_000063_000075_000061_000443_001663_003239_007717_002623_005723_042673_008519_058773,
  1_051085_000001_000001_000003_000001_000029_000013_000035_000061_000391_000517_001007_000017_002519_007121_020095_033449_021397_103787,
  1_051127_000001_000001_000005_000001_000009_000045_000049_000151_000039_000347_001821_002687_001551_012117_029429_040963_077795_020941,
  1_051139_000001_000001_000005_000003_000013_000049_000107_000105_000201_000601_001335_002389_006837_011123_022985_062705_059057_128333,
  1_051153_000001_000003_000003_000013_000005_000003_000021_000103_000481_000621_002037_002963_000425_004685_027475_024363_116419_171743,
  1_051181_000001_000003_000003_000005_000027_000027_000005_000091_000245_000421_000795_001869_006455_004463_023467_024039_069681_262127,
  1_051182_000001_000003_000001_000011_000011_000005_000031_000253_000469_000593_000877_002041_004615_001541_011823_058525_128689_095985,
  1_051194_000001_000003_000005_000013_000031_000035_000115_000073_000097_000213_001499_001371_004239_007897_003987_004833_115043_222743,
  1_051196_000001_000003_000003_000005_000031_000015_000017_000233_000137_000521_001721_001913_001881_013457_010733_061527_019825_192601,
  1_051200_000001_000003_000001_000003_000011_000021_000081_000077_000377_000915_000321_003925_000867_005491_004707_037307_052141_029155,
  1_051239_000001_000001_000005_000001_000013_000051_000097_000161_000295_000159_001717_003817_004687_001907_002655_060577_073867_161851,
  1_051240_000001_000001_000003_000013_000021_000031_000033_000145_000375_000377_001429_001981_004851_009047_002685_049037_067399_124243,
  1_051254_000001_000001_000007_000013_000001_000055_000065_000147_000471_000277_001585_003949_001885_001635_015687_046367_120931_192097,
  1_051260_000001_000001_000007_000009_000013_000027_000033_000041_000377_000863_001297_000181_002685_011285_003961_063201_059757_070231,
  1_051342_000001_000001_000003_000015_000029_000003_000079_000025_000147_000683_001563_000805_005891_003355_020113_048261_038195_014589,
  1_051370_000001_000001_000007_000011_000009_000015_000021_000033_000047_000923_001291_004001_000203_000305_021575_041915_074769_114921,
  1_051372_000001_000003_000007_000011_000015_000001_000075_000173_000473_000493_000291_000811_000931_010731_009855_057891_081575_250565,
  1_051377_000001_000003_000003_000003_000031_000031_000071_000141_000389_000661_000071_003245_006827_009219_026607_050511_094783_130785,
  1_051398_000001_000001_000007_000003_000009_000015_000067_000141_000293_000779_000003_003311_007063_013709_029715_055227_011043_150343,
  1_051402_000001_000003_000003_000003_000021_000009_000045_000111_000207_000715_000345_001345_003079_003851_023709_033919_108213_025353,
  1_051407_000001_000003_000005_000013_000007_000003_000035_000095_000397_000397_001159_002759_005233_016237_012469_029543_039133_064429,
  1_051410_000001_000001_000005_000013_000019_000035_000009_000007_000153_000843_002025_001379_003361_015889_007411_026399_106295_019851,
  1_051412_000001_000003_000001_000001_000021_000015_000071_000143_000279_000431_000487_000967_004445_011969_016671_048891_059605_230607,
  1_051419_000001_000003_000005_000001_000025_000063_000023_000143_000221_000805_000377_001441_001971_001985_010055_035991_115873_223455,
  1_051428_000001_000003_000001_000007_000021_000057_000001_000185_000117_000075_001623_003805_002385_010245_029009_059149_130219_114763,
  1_051431_000001_000003_000001_000013_000019_000013_000105_000241_000047_000597_001725_002579_003785_001667_012427_062623_060883_189977,
  1_051460_000001_000003_000005_000013_000001_000055_000059_000133_000263_000415_001013_000139_003037_013661_015303_027279_084095_184807,
  1_051475_000001_000003_000001_000011_000007_000045_000003_000179_000315_000639_000875_003299_005221_008463_017507_059673_073865_098867,
  1_051477_000001_000003_000007_000007_000003_000003_000053_000233_000219_000519_000585_003029_003623_009559_002251_043735_121513_208007,
  1_051478_000001_000003_000001_000003_000017_000047_000047_000145_000445_000541_000163_002653_000165_007213_003311_057335_043967_191841,
  1_051482_000001_000003_000005_000005_000007_000047_000039_000119_000013_000727_000887_003743_003807_015267_003977_052833_014851_061851,
  1_051511_000001_000001_000003_000005_000009_000009_000107_000119_000501_000723_001965_003093_006947_001783_011287_024243_014005_106677,
  1_051518_000001_000003_000003_000011_000011_000029_000085_000243_000359_000195_000221_001767_006969_015275_020853_026921_040903_029849,
  1_051568_000001_000003_000001_000005_000031_000003_000011_000247_000371_000339_001263_000119_000791_007425_018879_011333_034359_178929,
  1_051607_000001_000001_000003_000007_000023_000015_000121_000203_000441_000499_000779_001971_000339_008737_006859_032417_097073_256143,
  1_051618_000001_000001_000005_000011_000003_000023_000025_000051_000407_000677_000097_000281_000427_003671_007939_054485_003967_210199,
  1_051630_000001_000001_000005_000009_000005_000045_000023_000171_000255_000967_000313_003881_006039_010545_003591_051985_037145_099291,
  1_051655_000001_000001_000005_000007_000003_000013_000055_000147_000083_000369_001707_001919_000491_011507_029559_029169_065897_080587,
  1_051673_000001_000001_000003_000013_000031_000041_000041_000237_000245_000109_000969_001797_008169_006351_003657_009655_109201_245117,
  1_051683_000001_000003_000007_000005_000017_000023_000017_000219_000473_000001_000865_001949_007589_010107_003035_019903_079579_138695,
  1_051709_000001_000003_000001_000015_000013_000057_000109_000117_000277_000773_000031_003807_007615_002453_022655_051513_108367_248473,
  1_051716_000001_000001_000007_000011_000017_000059_000027_000167_000063_000931_000013_003721_001789_007621_031093_027541_037283_035193,
  1_051774_000001_000003_000003_000011_000013_000009_000007_000085_000045_000151_001865_004049_004433_009517_000231_030733_093701_126585,
  1_051829_000001_000003_000001_000013_000021_000033_000019_000087_000077_000425_000351_001163_007453_012567_024615_035563_127643_028625,
  1_051830_000001_000001_000003_000011_000007_000035_000027_000047_000465_000595_000985_000573_002541_007841_014749_043761_026699_135895,
  1_051839_000001_000001_000001_000007_000025_000051_000093_000237_000355_000575_000001_000443_005697_001997_028801_011621_062531_088449,
  1_051849_000001_000001_000001_000009_000023_000035_000023_000091_000161_000601_001401_002187_006283_010711_021277_047771_012589_176625,
  1_051869_000001_000003_000003_000005_000013_000023_000033_000065_000213_000835_000539_002487_000273_006113_018327_052493_017571_160909,
  1_051886_000001_000003_000001_000005_000025_000009_000117_000201_000457_000331_001455_000439_004891_005515_021701_009343_029085_120299,
  1_051905_000001_000001_000001_000005_000029_000007_000043_000125_000155_000043_001949_002901_007293_013683_018289_016873_027899_168631,
  1_051906_000001_000001_000007_000003_000029_000033_000053_000137_000301_000027_001101_000837_005843_013167_006073_049083_120031_045065,
  1_051915_000001_000003_000005_000001_000031_000047_000127_000185_000279_000603_001699_001693_003263_009055_003525_046065_079305_019949,
  1_051948_000001_000003_000007_000009_000017_000047_000025_000191_000369_000877_001477_003041_005123_001393_005061_001755_061051_055299,
  1_051988_000001_000001_000005_000013_000013_000007_000089_000141_000251_000321_001515_002677_005103_012901_029875_000165_015073_047795,
  1_051998_000001_000003_000001_000007_000001_000037_000055_000173_000191_000981_000685_004003_006319_003037_030637_011955_081015_089239,
  1_052004_000001_000003_000005_000005_000001_000005_000055_000251_000229_000153_000425_002793_006779_015797_010087_007573_121789_115479,
  1_052026_000001_000003_000007_000013_000023_000039_000023_000021_000055_000543_001539_003055_007825_002865_008967_056719_117219_142137,
  1_052036_000001_000001_000005_000013_000001_000029_000081_000011_000509_000061_001681_001911_000829_010583_007105_042047_128579_048891,
  1_052082_000001_000001_000003_000013_000007_000027_000081_000089_000129_000239_000309_001353_005265_012255_029391_001659_114857_043551,
  1_052127_000001_000001_000007_000013_000023_000015_000009_000093_000035_000839_000549_001793_004693_013295_010603_018179_033141_239555,
  1_052145_000001_000003_000001_000007_000017_000005_000011_000193_000143_000579_001199_001239_004503_015855_023345_034789_059427_235319,
  1_052157_000001_000003_000005_000003_000025_000063_000011_000203_000415_000135_000261_001843_003409_004605_015213_028537_075787_100007,
  1_052165_000001_000001_000001_000005_000003_000037_000029_000157_000213_000235_000959_001087_002843_010265_028233_014281_025867_204031,
  1_052193_000001_000003_000003_000007_000019_000049_000055_000111_000253_000823_000533_000941_002509_005595_009267_028457_084301_165385,
  1_052211_000001_000003_000005_000009_000005_000059_000013_000085_000339_000889_000597_003517_007001_005525_025451_013855_019033_182677,
  1_052213_000001_000003_000001_000015_000023_000029_000031_000105_000353_000825_001977_002013_000131_001969_000427_016465_090817_257931,
  1_052218_000001_000003_000001_000003_000029_000009_000109_000243_000321_000015_001479_000787_004667_013925_007347_007977_105585_143959,
  1_052220_000001_000001_000007_000015_000005_000045_000011_000095_000215_000719_000827_000077_007263_005705_026971_026845_082127_002849,
  1_052238_000001_000001_000007_000009_000005_000043_000103_000133_000203_000127_002021_003609_006971_013447_027089_062287_104391_147901,
  1_052240_000001_000003_000001_000003_000003_000041_000061_000101_000381_000985_001795_002465_002899_013517_023953_038831_043569_128643,
  1_052243_000001_000003_000005_000005_000009_000049_000013_000007_000215_000085_001203_000647_006627_001861_017901_040203_013007_084975,
  1_052250_000001_000003_000005_000015_000031_000013_000055_000089_000397_000641_001599_003379_003401_004173_005757_042945_059269_106891,
  1_052279_000001_000001_000005_000013_000025_000017_000045_000027_000151_000725_000819_000581_003675_003983_009499_047511_128039_056825,
  1_052285_000001_000001_000005_000001_000007_000011_000065_000063_000301_000927_000409_003729_007227_012849_017855_036527_002907_066819,
  1_052306_000001_000003_000003_000003_000029_000035_000039_000001_000349_000429_000805_003639_003909_004211_010393_036223_072543_136375,
  1_052370_000001_000001_000001_000009_000023_000027_000025_000213_000195_000455_000883_003357_007277_009061_014103_006005_035031_072703,
  1_052432_000001_000001_000003_000003_000011_000017_000019_000181_000025_000775_000897_003809_002031_013017_007505_037469_107335_174309,
  1_052457_000001_000001_000007_000013_000007_000001_000057_000027_000159_000465_000533_003409_003863_014001_008011_025873_014971_067243,
  1_052466_000001_000001_000003_000011_000019_000005_000011_000019_000075_000489_001879_001539_006563_004729_015605_035203_047993_110139,
  1_052514_000001_000003_000005_000009_000023_000017_000067_000089_000379_000849_001667_000955_001537_011781_009791_046959_079481_237335,
  1_052557_000001_000001_000007_000009_000003_000031_000127_000145_000029_000035_000463_004009_004427_016215_012093_050085_051259_045091,
  1_052560_000001_000001_000005_000009_000025_000003_000001_000131_000221_000951_000117_003227_000797_007617_013243_050139_026737_105875,
  1_052585_000001_000001_000005_000003_000011_000005_000007_000155_000211_000865_000027_003943_007923_009973_023233_037399_089951_106555,
  1_052586_000001_000001_000003_000013_000021_000061_000077_000121_000227_000527_001641_003535_003801_007221_006423_009179_114935_033373,
  1_052603_000001_000003_000007_000005_000031_000007_000123_000159_000367_000369_001905_001689_006773_000675_030289_054149_071469_232835,
  1_052650_000001_000001_000001_000013_000009_000023_000083_000237_000251_000941_000781_001489_006037_006001_015909_050527_060143_238499,
  1_052672_000001_000003_000001_000011_000005_000007_000103_000043_000413_000247_000535_002107_001801_016381_032529_002355_039143_071281,
  1_052681_000001_000001_000007_000005_000005_000031_000019_000011_000191_000643_000923_001661_002215_011817_023937_062907_128301_021459,
  1_052692_000001_000003_000007_000015_000001_000051_000123_000061_000099_000751_001819_001191_003865_008765_007131_033965_055697_087059,
  1_052735_000001_000001_000005_000013_000005_000057_000041_000103_000135_000207_000517_003995_002537_015705_009123_026193_030653_190549,
  1_052760_000001_000001_000003_000001_000023_000005_000109_000209_000407_000143_000943_002325_008087_000559_023675_031815_043805_067497,
  1_052772_000001_000001_000005_000009_000025_000033_000013_000021_000093_000357_001551_000739_005595_016285_030761_054075_075505_177333,
  1_052781_000001_000003_000005_000011_000017_000059_000031_000249_000095_000561_001849_004061_005577_002607_030083_059033_056697_089761,
  1_052793_000001_000001_000003_000013_000027_000057_000009_000017_000323_000813_001197_002775_003443_009523_024509_012129_089697_169043,
  1_052796_000001_000003_000005_000013_000017_000051_000091_000001_000105_000345_000829_001365_002755_007197_026655_001303_052223_133893,
  1_052807_000001_000001_000007_000001_000031_000003_000051_000021_000327_000851_000153_003329_003393_008489_005879_025035_124403_172657,
  1_052821_000001_000001_000001_000005_000003_000021_000061_000029_000099_000343_000621_003163_003763_009347_007691_034667_024555_125819]

def dirRows18_1_5 : List Nat := [
  1_052849_000001_000001_000001_000001_000003_000017_000083_000191_000083_000315_001091_000589_005081_004611_015521_025791_009103_013741,
  1_052866_000001_000003_000005_000003_000007_000053_000009_000227_000399_000857_000673_003027_005045_005573_007467_004813_099659_142845,
  1_052868_000001_000001_000005_000011_000023_000037_000071_000151_000279_000879_000601_002391_007091_012669_010203_011747_009613_248261,
  1_052872_000001_000001_000003_000003_000029_000025_000033_000025_000001_000683_001475_000457_003641_014219_020105_021449_006903_043819,
  1_052875_000001_000001_000007_000007_000005_000001_000073_000079_000357_000971_000699_001105_001683_001687_032677_062467_047671_088149,
  1_052886_000001_000003_000001_000015_000023_000013_000093_000075_000307_000081_001607_001333_006969_007747_027135_058941_026355_005565,
  1_052890_000001_000001_000007_000003_000027_000035_000085_000195_000421_000999_001721_002029_000283_013995_021649_007519_073357_193171,
  1_052896_000001_000003_000007_000015_000017_000063_000021_000187_000475_000671_001681_002731_008169_003327_019789_053295_043219_006949,
  1_052925_000001_000001_000007_000013_000009_000033_000047_000115_000295_000123_001293_001627_004261_004503_015925_016521_081759_247089,
  1_052931_000001_000003_000001_000013_000011_000015_000083_000129_000409_000465_000873_001333_007939_000973_002753_033727_128975_043333,
  1_052937_000001_000003_000003_000003_000027_000059_000001_000137_000145_000029_001189_002615_003249_011197_017165_032313_014065_044199,
  1_052938_000001_000003_000003_000011_000017_000049_000107_000111_000045_000963_001129_001775_007671_001495_014531_049743_063321_159841,
  1_052952_000001_000001_000005_000009_000005_000011_000079_000099_000155_000347_001777_003793_001765_002319_003135_030237_100845_052689,
  1_052979_000001_000003_000007_000013_000021_000057_000071_000207_000149_000161_000265_000991_006967_008905_021581_013921_079201_095667,
  1_053013_000001_000003_000005_000015_000013_000053_000095_000081_000443_000161_001071_002749_006637_000837_015015_062397_033295_112005,
  1_053023_000001_000003_000001_000001_000031_000025_000037_000111_000079_000293_000249_001523_001509_001993_017167_062939_118281_062699,
  1_053027_000001_000003_000007_000007_000005_000033_000061_000179_000265_000405_000287_001899_000437_001609_019617_041093_036341_176593,
  1_053033_000001_000001_000005_000003_000009_000033_000097_000045_000023_000807_001575_000627_007465_004805_011191_035439_069433_047275,
  1_053039_000001_000001_000001_000005_000001_000051_000051_000247_000453_000449_001487_000141_002501_008039_014749_063733_091963_232951,
  1_053041_000001_000003_000003_000013_000015_000007_000081_000211_000445_000015_000899_000835_005163_003403_007367_029963_080413_087209,
  1_053048_000001_000003_000001_000011_000025_000043_000113_000139_000381_000391_000485_001503_004195_010109_013771_035865_050909_224887,
  1_053073_000001_000001_000007_000009_000009_000051_000021_000085_000137_000765_000951_002453_000227_009177_001457_047937_084203_118987,
  1_053095_000001_000003_000005_000009_000001_000001_000021_000041_000133_000317_000519_002249_003453_002957_002029_054737_042515_176017,
  1_053099_000001_000003_000001_000007_000009_000027_000079_000193_000209_000281_000267_001267_007013_013667_013331_032863_005289_015077,
  1_053120_000001_000001_000005_000011_000029_000003_000003_000177_000075_000485_001735_003955_004349_007893_013075_058735_008629_078143,
  1_053154_000001_000001_000007_000013_000003_000015_000015_000077_000007_000843_001561_000461_006817_004363_007861_045697_115663_093789,
  1_053168_000001_000001_000001_000007_000005_000035_000083_000213_000229_000383_000747_000337_002589_000683_018575_042415_074889_227331,
  1_053192_000001_000003_000005_000003_000017_000035_000057_000213_000247_000273_000689_001889_005667_000357_004267_011611_020621_159039,
  1_053205_000001_000003_000003_000015_000007_000055_000025_000083_000293_000939_001169_002507_003939_007537_002959_040231_124511_181091,
  1_053206_000001_000001_000005_000009_000031_000051_000067_000149_000509_000695_000449_002761_006597_004741_004205_049177_045599_167807,
  1_053234_000001_000001_000007_000015_000003_000007_000113_000071_000279_000885_000251_002831_000855_006673_006511_063861_041109_177119,
  1_053246_000001_000001_000005_000003_000007_000023_000125_000011_000217_001023_000549_000529_003891_010595_013751_037729_113469_110549,
  1_053253_000001_000001_000003_000015_000021_000009_000013_000063_000093_000635_000659_002837_006303_010083_010107_027859_033891_181229,
  1_053263_000001_000001_000007_000003_000003_000043_000005_000149_000353_000353_000565_002441_007113_006493_030355_017887_110787_187199,
  1_053275_000001_000001_000003_000007_000019_000043_000099_000063_000169_000743_000185_003817_006677_005549_001609_024701_098669_233701,
  1_053313_000001_000001_000001_000001_000021_000049_000073_000169_000223_000551_000553_000917_004705_014951_014031_019753_096205_131755,
  1_053331_000001_000001_000003_000003_000017_000049_000051_000249_000293_000921_000435_002915_003125_003487_011417_035043_029543_035933,
  1_053349_000001_000001_000003_000009_000023_000043_000073_000151_000379_000911_000671_000151_000955_011885_028795_023967_117135_137985,
  1_053367_000001_000001_000003_000007_000029_000003_000051_000231_000059_000227_000443_003533_007785_012535_025725_007451_009391_239281,
  1_053383_000001_000003_000003_000009_000017_000037_000091_000195_000005_000843_000313_001417_001207_003225_015949_034023_001275_221057,
  1_053392_000001_000001_000003_000015_000003_000051_000111_000135_000063_000495_001967_002151_000197_010913_020705_001021_068431_067119,
  1_053404_000001_000001_000005_000003_000007_000029_000087_000219_000273_000267_001317_000797_006723_000947_029867_032571_012337_234715,
  1_053407_000001_000003_000005_000015_000001_000009_000091_000063_000097_000107_000451_004025_000233_007803_017031_007669_049417_256611,
  1_053411_000001_000001_000007_000003_000017_000017_000045_000197_000227_000133_000799_000411_006739_008037_019553_053009_025201_107625,
  1_053417_000001_000003_000005_000007_000003_000039_000025_000095_000197_000127_000045_000173_003305_006575_019633_054919_035373_059509,
  1_053425_000001_000003_000003_000003_000009_000001_000107_000211_000217_000715_000311_003641_008055_000001_009017_029329_128467_046911,
  1_053443_000001_000001_000001_000007_000001_000013_000013_000079_000259_000533_001761_000449_003363_003061_026227_050407_122951_261425,
  1_053469_000001_000003_000005_000005_000029_000019_000041_000007_000025_000203_000587_003321_000655_015877_010423_041481_070325_165527,
  1_053480_000001_000003_000005_000009_000011_000045_000091_000253_000007_000137_000795_002379_004527_001677_005081_006523_097245_003691,
  1_053508_000001_000003_000007_000009_000025_000043_000125_000243_000391_000785_000651_003245_007979_014689_015443_040501_005519_096551,
  1_053535_000001_000001_000001_000003_000025_000053_000045_000159_000047_000701_001655_002019_002355_011213_012403_042291_044925_072689,
  1_053536_000001_000001_000001_000005_000021_000019_000077_000031_000003_000161_000149_003759_006331_012311_007021_001117_012459_134821,
  1_053542_000001_000001_000003_000009_000009_000059_000023_000255_000437_000625_000719_003727_007157_001889_031523_059127_114143_174179,
  1_053563_000001_000001_000001_000015_000023_000007_000047_000137_000077_000519_001681_001159_006121_014789_021343_043101_044709_179863,
  1_053577_000001_000003_000001_000003_000017_000027_000103_000011_000327_000735_001949_003719_000811_002267_013187_029747_098433_242021,
  1_053591_000001_000001_000007_000015_000015_000063_000025_000203_000109_000585_000409_004093_006669_002381_030721_058975_017235_257959,
  1_053607_000001_000003_000003_000005_000005_000019_000027_000069_000069_000193_000693_001169_006321_003425_009285_028019_128343_185165,
  1_053626_000001_000001_000003_000009_000007_000051_000113_000093_000081_000385_001811_002601_002065_001029_024515_007199_026425_174283,
  1_053628_000001_000001_000001_000005_000029_000055_000093_000219_000281_000887_000891_002763_006083_009627_018559_021329_073887_083699,
  1_053638_000001_000001_000001_000003_000021_000031_000049_000173_000015_000177_001001_003453_005623_014107_008837_010163_026817_041947,
  1_053675_000001_000001_000003_000005_000027_000063_000117_000049_000405_000281_000981_002363_001525_009685_029089_016739_066509_125823,
  1_053685_000001_000003_000007_000013_000027_000029_000057_000189_000345_000135_000753_000463_000731_004823_014335_033299_105229_054705,
  1_053692_000001_000003_000001_000001_000009_000043_000051_000025_000371_000261_001409_003493_002811_012915_016075_062159_125945_108453,
  1_053703_000001_000003_000007_000015_000013_000033_000047_000053_000263_000669_001383_003059_004043_004777_014679_002077_011019_005803,
  1_053722_000001_000001_000003_000011_000021_000007_000039_000071_000215_000079_001849_001261_000045_001273_027591_004653_025119_030445,
  1_053738_000001_000003_000005_000009_000021_000003_000017_000207_000417_000777_000037_003349_002761_004469_003457_015593_087251_038601,
  1_053748_000001_000001_000007_000013_000029_000029_000101_000103_000487_000087_001129_002497_005501_004813_008623_025077_050487_094053,
  1_053752_000001_000003_000003_000011_000007_000023_000095_000245_000127_000055_000431_002707_004955_015871_029589_060023_001921_227623,
  1_053764_000001_000001_000003_000011_000017_000061_000103_000059_000477_000099_001203_000157_000203_000557_022921_047363_012853_144067,
  1_053781_000001_000003_000001_000013_000015_000023_000051_000109_000499_000841_001779_002515_002519_004945_020061_012395_009223_157901,
  1_053788_000001_000003_000007_000009_000009_000015_000057_000223_000223_000463_000427_002145_001219_012639_028361_046019_128101_198479,
  1_053791_000001_000003_000007_000007_000001_000001_000099_000101_000135_000169_001885_003979_003051_013649_026607_045067_004503_074087,
  1_053816_000001_000003_000007_000005_000017_000063_000027_000045_000447_000759_001099_003407_000489_002719_031577_010355_126835_203439,
  1_053824_000001_000001_000005_000001_000021_000019_000001_000239_000433_000531_001181_002021_000423_003235_008457_044459_117401_063545,
  1_053830_000001_000003_000007_000013_000021_000039_000025_000065_000405_000785_000137_002899_003255_011165_007827_046425_089063_102787,
  1_053839_000001_000001_000001_000011_000025_000003_000039_000061_000395_000035_002001_003201_002233_009625_026489_054167_088495_127441,
  1_053844_000001_000001_000007_000007_000003_000027_000011_000049_000117_000711_001881_001457_006759_010517_012733_047435_103111_237237,
  1_053875_000001_000001_000005_000005_000001_000061_000121_000155_000223_000733_001349_002825_002093_004481_021389_040227_020453_116907,
  1_053921_000001_000003_000007_000007_000005_000011_000085_000131_000345_000723_000853_003679_007859_011923_016619_063169_127261_155665,
  1_053922_000001_000001_000005_000001_000003_000051_000093_000225_000197_000893_000555_002611_006225_007819_031655_012235_024919_031451,
  1_053927_000001_000001_000003_000003_000011_000023_000095_000205_000085_000705_000545_000155_005533_014837_008341_042473_096891_070695,
  1_053948_000001_000003_000003_000005_000017_000031_000099_000187_000219_000275_000685_002933_004535_013495_020351_060667_095211_129233,
  1_053956_000001_000001_000001_000011_000009_000011_000123_000231_000127_000199_000733_002495_002601_010565_003155_045251_128319_187457,
  1_053990_000001_000003_000001_000009_000003_000033_000041_000109_000279_000851_001115_003773_002383_001885_006993_059693_069863_088081,
  1_053994_000001_000001_000007_000013_000003_000027_000027_000203_000337_000965_000959_001125_002897_008653_015827_051187_012121_004665,
  1_054001_000001_000003_000001_000009_000019_000007_000023_000113_000257_000671_000571_001061_004353_000217_013603_027961_068431_147187,
  1_054016_000001_000003_000005_000009_000025_000061_000007_000139_000237_000859_000761_002005_005981_000153_006553_053005_072653_033571,
  1_054019_000001_000003_000005_000005_000009_000035_000063_000149_000427_000065_000635_001955_001845_013781_009761_036147_091479_141305,
  1_054070_000001_000001_000003_000005_000013_000039_000053_000113_000481_000933_000239_003713_007453_012363_014763_046955_108545_074349,
  1_054074_000001_000003_000001_000007_000013_000041_000057_000225_000213_000617_001947_002855_004885_008553_020259_057125_059369_178553,
  1_054088_000001_000003_000005_000015_000031_000031_000019_000087_000461_000403_001193_002123_004991_014551_017153_014171_017157_194879,
  1_054102_000001_000001_000005_000011_000005_000027_000119_000065_000111_000455_001949_003441_006951_006819_012839_006913_057695_145925,
  1_054111_000001_000001_000001_000015_000019_000041_000055_000045_000033_000559_000589_003773_000745_008515_032389_047797_000145_105503,
  1_054130_000001_000001_000003_000015_000013_000053_000035_000223_000247_000893_000149_000553_000829_005129_026417_015769_095411_006595,
  1_054152_000001_000001_000005_000003_000003_000059_000035_000187_000387_000003_000847_003579_007869_000481_023955_022191_021041_230449,
  1_054170_000001_000001_000003_000015_000023_000011_000097_000199_000011_000647_000803_002391_005791_002223_022187_049675_087775_196871,
  1_054172_000001_000003_000007_000005_000025_000063_000107_000227_000133_000337_001767_002459_002987_010463_025001_017047_079901_222877,
  1_054211_000001_000003_000001_000013_000025_000005_000047_000109_000473_000389_001743_003951_004231_000827_004189_029903_106909_152835,
  1_054218_000001_000001_000005_000003_000007_000061_000121_000189_000303_000021_000957_000545_007893_003217_025847_029371_100569_132393,
  1_054228_000001_000001_000001_000015_000029_000017_000059_000037_000449_000149_000845_000555_007603_011911_018477_023279_107167_160339]

def dirRows18_1_6 : List Nat := [
  1_054251_000001_000001_000007_000005_000013_000027_000043_000167_000443_000445_002011_002179_002785_013663_021957_002455_018217_019303,
  1_054253_000001_000001_000001_000005_000019_000045_000071_000039_000021_000791_001467_000855_003101_008267_015529_000919_105313_075627,
  1_054268_000001_000003_000001_000011_000031_000025_000057_000177_000211_000327_000679_000771_007725_006123_023931_048223_009063_133319,
  1_054271_000001_000003_000005_000003_000001_000011_000019_000153_000177_000563_001919_000117_005583_001519_016623_010871_015511_066113,
  1_054274_000001_000001_000007_000007_000009_000045_000063_000253_000415_000347_000081_002991_002691_002383_015573_033783_012445_224107,
  1_054288_000001_000003_000005_000005_000007_000017_000099_000231_000439_001009_000623_000833_000685_006419_030313_056197_073239_260007,
  1_054314_000001_000001_000005_000005_000005_000051_000097_000239_000267_000629_001211_002175_005681_003107_011381_057047_120175_131285,
  1_054319_000001_000001_000007_000007_000029_000011_000021_000049_000481_000279_001795_001295_000453_015985_019941_051853_015115_107271,
  1_054321_000001_000001_000005_000001_000023_000061_000033_000021_000409_000057_000903_000557_001673_002759_023705_004109_058865_233081,
  1_054324_000001_000001_000001_000005_000011_000037_000079_000015_000213_000485_001477_003925_003205_009267_022043_054197_057101_066185,
  1_054341_000001_000001_000007_000013_000031_000027_000095_000141_000131_000043_002039_002257_000017_014427_005699_022263_086851_226283,
  1_054353_000001_000003_000005_000005_000011_000005_000005_000217_000363_000163_001241_003683_001409_001731_020973_063849_035041_094859,
  1_054366_000001_000001_000007_000001_000025_000061_000067_000239_000369_000319_001157_002435_002147_012057_004451_003005_031787_199653,
  1_054370_000001_000003_000005_000001_000011_000057_000001_000163_000433_000011_001299_001711_001601_004677_016481_025175_063893_041853,
  1_054420_000001_000001_000003_000001_000029_000049_000091_000015_000313_000533_000115_004005_003157_010615_027915_052613_064447_093091,
  1_054423_000001_000003_000007_000003_000007_000017_000103_000067_000237_000595_001571_003421_003971_011123_000145_052087_059273_021417,
  1_054434_000001_000003_000005_000011_000031_000037_000105_000205_000377_000243_000841_003153_006847_014171_019947_061561_000035_261753,
  1_054440_000001_000003_000005_000009_000029_000021_000103_000219_000107_000427_001841_002015_002919_005721_008631_048841_033281_035835,
  1_054454_000001_000001_000003_000005_000025_000027_000067_000065_000305_000677_001975_001049_007277_015279_030181_048941_119087_130265,
  1_054495_000001_000001_000003_000009_000029_000027_000109_000167_000351_000463_000663_003155_000919_010627_030163_062233_032927_210775,
  1_054501_000001_000003_000005_000005_000019_000009_000017_000093_000033_000999_001537_003045_003735_004625_031363_046075_080985_108331,
  1_054526_000001_000003_000007_000007_000011_000063_000083_000157_000205_000505_000657_001901_001405_008349_016473_029397_130379_167963,
  1_054639_000001_000003_000001_000015_000025_000049_000065_000189_000461_000923_001839_002597_002471_014103_002915_048429_074387_243465,
  1_054653_000001_000003_000007_000011_000031_000047_000109_000021_000205_000343_001999_000315_008119_015937_008761_055257_099983_131641,
  1_054667_000001_000001_000003_000011_000003_000023_000073_000125_000017_000967_001811_001413_004783_008303_025301_026859_090583_140721,
  1_054678_000001_000001_000005_000005_000025_000041_000049_000127_000391_000381_001575_001697_005205_012805_024365_020275_058819_167845,
  1_054700_000001_000001_000007_000011_000017_000053_000051_000035_000383_000931_000359_002863_000119_006683_026247_014281_049205_256869,
  1_054717_000001_000001_000007_000009_000023_000005_000069_000097_000407_000015_000579_002905_000047_006227_023997_042459_026569_225467,
  1_054780_000001_000003_000003_000011_000007_000003_000125_000087_000347_000079_001571_001513_000285_012101_001731_027887_042009_173243,
  1_054801_000001_000003_000007_000013_000003_000005_000099_000029_000077_000873_001111_001451_005493_010669_022597_054437_055521_101617,
  1_054813_000001_000003_000001_000003_000003_000017_000041_000215_000207_000071_000683_001979_004849_002437_005717_028999_055005_233929,
  1_054814_000001_000001_000001_000001_000023_000021_000105_000223_000005_000235_001533_003715_002689_013937_012125_063879_111537_039817,
  1_054850_000001_000003_000003_000015_000025_000047_000071_000229_000021_000563_001851_002423_000131_004431_031567_008883_001311_227893,
  1_054883_000001_000003_000005_000011_000007_000023_000019_000059_000397_000315_001149_003595_005973_011027_005233_055237_102777_137421,
  1_054907_000001_000001_000007_000009_000017_000061_000045_000235_000387_000171_001079_003119_006933_003591_000751_035495_049969_204611,
  1_054919_000001_000001_000007_000007_000021_000007_000105_000079_000081_000245_001229_000409_005159_009815_006713_004687_120541_246133,
  1_054931_000001_000003_000007_000013_000023_000031_000085_000097_000481_000497_000581_001179_000243_001767_011855_011599_003141_104741,
  1_054933_000001_000003_000007_000003_000003_000045_000015_000029_000413_000631_000273_001007_002979_011307_024535_009305_083591_077121,
  1_054991_000001_000003_000007_000015_000021_000055_000011_000169_000417_000631_000141_001489_003371_016073_011215_015479_125341_131731,
  1_055003_000001_000001_000007_000005_000013_000033_000007_000121_000295_000191_000497_002233_000997_013833_014503_038357_079007_053985,
  1_055009_000001_000003_000003_000003_000029_000063_000097_000027_000449_000643_000317_001989_001481_002873_021247_035989_061295_101829,
  1_055030_000001_000003_000001_000007_000013_000049_000027_000227_000021_000983_000179_002761_002859_002851_026447_033295_126963_041441,
  1_055034_000001_000001_000005_000013_000027_000001_000061_000115_000185_000867_002017_002257_005035_007855_025849_048189_028287_133261,
  1_055039_000001_000001_000007_000013_000027_000017_000013_000205_000379_000717_000247_003341_002841_010845_026979_005589_001935_048371,
  1_055048_000001_000003_000001_000011_000009_000051_000025_000185_000065_000643_001867_003825_003395_008883_029239_020019_019071_003377,
  1_055059_000001_000001_000001_000001_000011_000057_000061_000113_000419_000249_000153_002883_000087_007919_011941_046725_038701_073715,
  1_055061_000001_000003_000003_000011_000003_000015_000019_000087_000027_000839_000463_001757_003137_010821_002857_058101_091983_137045,
  1_055068_000001_000003_000003_000001_000025_000025_000015_000093_000359_000005_000053_000647_006245_001957_004651_014697_012193_231303,
  1_055077_000001_000001_000005_000009_000031_000049_000069_000223_000133_000595_000777_001281_000727_006671_021453_014193_051769_258301,
  1_055122_000001_000003_000005_000011_000029_000037_000075_000017_000229_000121_000313_002873_005233_013231_007589_040075_042101_137697,
  1_055149_000001_000001_000007_000001_000031_000009_000015_000063_000149_000005_001785_000021_002619_015071_003243_058023_020697_205181,
  1_055157_000001_000003_000007_000007_000025_000061_000059_000157_000251_000303_001905_002389_001681_000319_014155_049089_045381_124447,
  1_055158_000001_000003_000005_000005_000025_000027_000041_000125_000105_000867_000365_000117_007215_002887_028499_009597_105999_150189,
  1_055178_000001_000001_000005_000013_000005_000033_000047_000221_000207_000641_000525_003215_005293_016343_016169_044393_026305_194411,
  1_055222_000001_000003_000005_000013_000029_000017_000031_000077_000511_000465_001141_000597_005111_006629_014557_013057_011643_250925,
  1_055234_000001_000001_000007_000011_000001_000005_000065_000139_000471_000265_001145_000965_000047_010971_015615_062031_058523_175593,
  1_055236_000001_000001_000005_000001_000023_000061_000057_000139_000377_000843_000079_002873_001823_007551_026741_063031_124879_115295,
  1_055251_000001_000001_000005_000013_000009_000019_000001_000061_000331_001015_001035_001691_004057_006071_024929_039569_095695_039307,
  1_055269_000001_000003_000003_000005_000023_000017_000013_000065_000381_000893_001879_003735_001547_006735_030251_011471_102997_126429,
  1_055270_000001_000001_000005_000013_000001_000043_000015_000001_000155_000221_001463_003793_006467_007221_028027_055357_069397_087565,
  1_055284_000001_000001_000007_000003_000017_000009_000071_000075_000077_000639_001251_000701_000473_012337_001893_006349_010837_027797,
  1_055309_000001_000003_000005_000011_000011_000011_000125_000023_000161_000937_000707_002487_000695_008495_016219_033671_109463_248305,
  1_055322_000001_000001_000001_000011_000005_000049_000015_000047_000393_000407_000039_001867_007727_012701_007805_000119_077401_186421,
  1_055334_000001_000001_000005_000005_000019_000021_000077_000187_000387_000051_001497_001225_003101_000791_000529_004321_118435_112889,
  1_055340_000001_000003_000001_000013_000027_000017_000011_000063_000201_000909_001549_003243_001803_009461_020985_024637_100993_200473,
  1_055348_000001_000003_000007_000013_000011_000035_000097_000213_000415_000467_002013_002159_007017_007895_018235_050659_113169_141887,
  1_055377_000001_000001_000003_000007_000013_000021_000119_000109_000471_000323_000277_001685_002399_014777_002643_005879_113043_045223,
  1_055430_000001_000003_000001_000013_000019_000005_000001_000075_000499_000297_001897_000591_003223_012939_030593_004053_122207_215171,
  1_055433_000001_000003_000003_000009_000021_000011_000029_000205_000013_000381_000569_000599_007089_008145_018531_034477_101057_064269,
  1_055441_000001_000001_000005_000015_000001_000019_000037_000131_000325_000441_000003_004001_006937_009207_027543_030321_037083_241019,
  1_055470_000001_000003_000007_000013_000007_000015_000009_000159_000097_000905_000557_001913_007325_004057_019461_014277_036873_025619,
  1_055535_000001_000003_000005_000007_000003_000051_000099_000009_000185_000227_002041_000331_003925_012481_017485_037137_003753_125269,
  1_055561_000001_000001_000007_000011_000031_000049_000089_000037_000049_000863_000833_003263_000351_006277_023055_049727_025005_161585,
  1_055567_000001_000003_000005_000001_000009_000035_000089_000101_000117_000365_001015_001159_004623_004541_006831_028091_010647_221415,
  1_055597_000001_000001_000005_000005_000013_000047_000125_000209_000199_000885_000927_001411_000795_008835_028589_048753_027191_053455,
  1_055630_000001_000001_000005_000009_000007_000019_000003_000087_000157_000121_001433_001463_003241_005969_000203_036723_014779_063949,
  1_055648_000001_000001_000003_000009_000001_000047_000071_000113_000405_000561_001149_003599_004173_006819_005493_045987_041521_221503,
  1_055653_000001_000003_000003_000001_000003_000055_000101_000103_000161_000549_000457_002529_002043_008843_005677_007449_045185_178289,
  1_055657_000001_000001_000001_000003_000031_000025_000001_000161_000007_000503_000641_002221_000749_001521_006151_019245_055913_080141,
  1_055665_000001_000001_000001_000009_000003_000045_000073_000217_000249_000929_000163_002139_003921_011223_011161_052697_089633_014243,
  1_055678_000001_000001_000007_000015_000017_000041_000005_000119_000211_000053_000985_002679_000679_009349_025577_026947_035141_093999,
  1_055684_000001_000003_000001_000015_000017_000043_000051_000015_000363_000615_000889_000195_006279_015477_031545_050941_119711_066535,
  1_055691_000001_000001_000001_000013_000007_000011_000017_000127_000131_000759_000739_000161_005937_013611_031757_010681_101357_082873,
  1_055693_000001_000003_000005_000007_000021_000063_000075_000033_000233_000981_000589_003409_003523_001871_008919_038513_032825_056935,
  1_055702_000001_000003_000005_000003_000009_000009_000085_000221_000203_000727_001035_001069_002409_002687_000235_023395_064163_193235,
  1_055708_000001_000003_000003_000007_000001_000035_000119_000175_000203_000819_000207_002283_004175_003581_011647_043073_104573_086607,
  1_055715_000001_000003_000003_000015_000011_000063_000059_000153_000279_000779_000261_003317_007671_011727_019381_033227_079331_187227,
  1_055739_000001_000001_000003_000001_000007_000001_000115_000015_000235_000009_001877_001911_001089_009939_009537_039563_095327_070323,
  1_055761_000001_000001_000005_000007_000025_000061_000063_000145_000425_000617_001813_003255_006797_016019_018849_044191_069877_179933,
  1_055767_000001_000001_000003_000013_000017_000045_000069_000247_000027_000367_000871_001185_000895_007991_008145_022869_097609_014673,
  1_055768_000001_000003_000003_000011_000019_000041_000099_000213_000159_000803_000121_001197_002849_015191_015603_052445_105077_128231,
  1_055774_000001_000003_000001_000011_000021_000061_000117_000167_000437_000447_000419_001673_000755_015331_029819_016099_130773_177547,
  1_055787_000001_000003_000007_000007_000001_000015_000079_000109_000351_000071_000985_000089_007517_004175_030533_052125_100863_186477,
  1_055811_000001_000001_000003_000001_000015_000001_000103_000065_000511_000241_001279_003233_007141_000255_010925_028271_056151_252121,
  1_055835_000001_000001_000001_000013_000017_000049_000059_000093_000019_000343_000979_000865_003447_004595_003067_026807_098915_126237,
  1_055894_000001_000003_000003_000005_000017_000005_000091_000199_000191_000775_000233_000919_000277_003485_009231_037025_023493_186745,
  1_055897_000001_000003_000001_000001_000011_000005_000103_000187_000085_000047_001111_000883_006155_015315_009041_058275_075037_007773,
  1_055904_000001_000003_000001_000003_000019_000005_000007_000211_000481_000713_000383_001203_006089_015817_031577_007283_025457_101455,
  1_055931_000001_000003_000005_000007_000021_000009_000059_000127_000375_000477_000721_003931_007089_009079_005015_062019_113747_036055,
  1_055950_000001_000003_000007_000013_000003_000017_000047_000177_000103_000535_001787_000509_005253_002857_013421_019875_037397_251353]

def dirRows18_1_7 : List Nat := [
  1_055961_000001_000001_000005_000007_000019_000031_000041_000093_000301_000045_000251_002691_004657_002627_017321_024627_080221_117191,
  1_055973_000001_000003_000005_000007_000005_000031_000027_000003_000463_000549_001669_000499_000815_004091_007049_060957_102849_235617,
  1_056078_000001_000003_000005_000001_000021_000031_000057_000201_000503_000977_000893_003927_001605_008265_005137_051009_089375_237909,
  1_056099_000001_000003_000003_000001_000027_000005_000011_000081_000445_000229_000005_000543_003397_012961_031911_036945_059485_000305,
  1_056105_000001_000001_000005_000013_000031_000063_000039_000171_000243_000039_001147_000459_007215_014603_020625_047369_121495_237741,
  1_056119_000001_000003_000003_000013_000015_000063_000039_000023_000305_000685_001885_000571_002657_016031_024759_010639_025619_246137,
  1_056133_000001_000001_000001_000005_000019_000033_000005_000187_000167_000725_001405_000511_000701_013283_003513_016495_008755_221751,
  1_056168_000001_000001_000007_000011_000003_000027_000027_000237_000495_000637_000479_003247_003825_002567_012853_052881_034807_161483,
  1_056191_000001_000003_000003_000009_000023_000043_000101_000175_000019_000443_000787_001053_004113_012777_004615_053115_002873_117383,
  1_056202_000001_000003_000001_000013_000003_000023_000033_000093_000145_000937_000957_002463_000827_000383_016749_061567_010029_188159,
  1_056209_000001_000001_000007_000015_000021_000023_000003_000071_000323_000995_000645_001189_001029_000519_003479_013587_095641_215337,
  1_056215_000001_000003_000007_000011_000009_000017_000101_000059_000421_000417_000797_003089_000773_015959_018127_013681_104667_217433,
  1_056232_000001_000003_000005_000007_000031_000021_000009_000007_000377_000589_001497_000939_005389_010997_022291_019639_072187_066193,
  1_056240_000001_000001_000001_000013_000019_000001_000127_000185_000251_000167_001289_002715_005885_012715_018261_036861_102721_246917,
  1_056260_000001_000001_000007_000001_000023_000041_000019_000151_000125_000465_000813_001711_007933_013561_029737_059207_062533_124149,
  1_056270_000001_000003_000005_000009_000007_000013_000017_000119_000425_000877_001207_002211_002943_013921_028251_044143_112149_152341,
  1_056278_000001_000003_000005_000009_000015_000021_000087_000083_000077_000731_000091_003091_005687_009647_002037_039031_106583_066533,
  1_056281_000001_000001_000007_000009_000031_000049_000007_000119_000147_000599_001191_000297_001597_010723_016893_047387_106995_165409,
  1_056288_000001_000003_000003_000003_000003_000063_000011_000193_000241_000063_001671_002139_005689_013967_009239_007535_034237_140283,
  1_056303_000001_000003_000005_000013_000009_000023_000065_000247_000473_000825_000109_001897_000245_010517_008147_025989_096447_118689,
  1_056308_000001_000001_000003_000005_000027_000035_000065_000023_000159_000729_000189_002661_004245_014377_021043_015551_002717_146949,
  1_056312_000001_000001_000003_000013_000023_000005_000035_000063_000293_000347_000883_000149_005145_010821_005813_024183_094711_064787,
  1_056320_000001_000001_000005_000003_000027_000003_000127_000141_000237_000535_001509_002755_005843_002379_019413_052345_100247_042571,
  1_056326_000001_000003_000003_000009_000001_000055_000061_000105_000029_001021_001215_002157_007453_004643_026793_033553_002959_051485,
  1_056392_000001_000001_000003_000007_000031_000051_000059_000049_000321_000207_000415_002115_000219_005045_031133_017961_130779_028255,
  1_056395_000001_000003_000007_000015_000009_000029_000031_000185_000111_000959_000007_000827_007891_005449_022221_049933_002091_194683,
  1_056403_000001_000003_000007_000001_000011_000059_000075_000255_000387_000913_000423_002915_005079_006363_005175_057977_005559_013257,
  1_056419_000001_000001_000007_000001_000021_000003_000021_000013_000157_000003_000715_003525_007769_005333_025345_053473_044323_203167,
  1_056428_000001_000001_000007_000011_000031_000025_000055_000005_000169_000695_001599_002357_001427_014469_015223_034275_042605_023005,
  1_056450_000001_000001_000001_000015_000019_000051_000117_000135_000297_000831_000329_003793_004673_003795_024185_052971_030423_068771,
  1_056452_000001_000001_000007_000005_000019_000033_000079_000077_000315_000029_000307_001709_003489_014515_012477_058939_053753_165031,
  1_056485_000001_000001_000007_000001_000027_000057_000119_000207_000355_000279_001371_003917_002821_005285_012673_028973_054957_094001,
  1_056486_000001_000003_000007_000003_000019_000057_000053_000199_000485_000805_000301_001337_005993_002187_030573_012045_101205_129841,
  1_056492_000001_000001_000003_000009_000015_000045_000071_000119_000445_000759_001361_001299_002927_002343_022085_053733_021241_001553,
  1_056498_000001_000003_000005_000003_000027_000011_000001_000239_000497_000343_001989_001463_002473_005191_006271_014129_124453_096817,
  1_056510_000001_000003_000005_000007_000027_000019_000123_000027_000483_000557_001545_001871_001297_000587_001067_051259_119231_173659,
  1_056512_000001_000003_000001_000001_000027_000045_000041_000113_000453_000553_002019_002039_001709_013017_005497_034459_060295_229405,
  1_056524_000001_000003_000001_000011_000001_000057_000051_000125_000261_000915_001673_000025_000529_000653_017247_064225_098991_248143,
  1_056530_000001_000003_000005_000015_000025_000027_000031_000001_000463_000249_000113_001955_002223_005463_012281_020843_026495_256759,
  1_056545_000001_000001_000003_000011_000027_000033_000057_000205_000089_000435_001983_001165_003843_000127_030179_063971_010211_105403,
  1_056551_000001_000003_000003_000005_000021_000049_000035_000161_000273_000205_000041_001881_002013_012549_024859_055711_098235_237281,
  1_056565_000001_000003_000003_000001_000015_000035_000095_000001_000221_000675_000385_002257_002531_002129_012895_011565_125977_051973,
  1_056580_000001_000001_000001_000015_000019_000061_000035_000055_000009_000721_000499_002577_003001_014861_022293_056195_072855_166703,
  1_056587_000001_000001_000001_000007_000005_000025_000059_000175_000081_000989_000935_002579_008183_001109_004645_053753_115795_105091,
  1_056589_000001_000003_000003_000013_000007_000055_000007_000113_000197_000763_001747_003291_001109_004391_018257_028563_097413_005847,
  1_056592_000001_000001_000001_000007_000023_000055_000091_000083_000479_000305_000843_002055_003405_015243_031551_005275_008651_066915,
  1_056611_000001_000003_000007_000009_000003_000019_000083_000229_000235_000903_001495_001033_002729_014927_011847_022979_013905_084413,
  1_056623_000001_000003_000003_000013_000027_000037_000083_000193_000475_000439_000745_000757_007359_006683_005839_050765_006933_117411,
  1_056635_000001_000003_000005_000011_000031_000025_000033_000077_000113_000815_000123_002721_002133_008995_015237_054565_005155_051235,
  1_056646_000001_000003_000003_000007_000015_000031_000073_000091_000379_000039_000913_000053_000041_001059_025883_011769_063015_048125,
  1_056660_000001_000001_000005_000005_000005_000013_000081_000169_000071_000529_001429_002101_004069_005509_030283_040625_103673_183243,
  1_056680_000001_000003_000003_000005_000023_000039_000039_000237_000445_000567_000343_002521_002287_001851_002315_059979_005015_243349,
  1_056686_000001_000001_000007_000001_000001_000051_000089_000229_000187_000207_000245_003521_002987_004347_006997_062565_054397_140473,
  1_056716_000001_000003_000001_000005_000007_000059_000045_000161_000457_000655_001591_000215_002213_015101_014791_040397_095811_126291,
  1_056749_000001_000001_000003_000001_000005_000023_000007_000199_000143_000561_001669_000017_008109_011003_004535_008593_112021_223153,
  1_056790_000001_000003_000005_000009_000003_000037_000111_000015_000235_000697_000385_002197_000909_001247_026199_050661_100643_122577,
  1_056809_000001_000003_000005_000011_000023_000053_000095_000075_000463_000137_001511_003373_003071_000547_022399_051891_009123_240925,
  1_056869_000001_000003_000007_000003_000021_000035_000069_000197_000371_000015_000185_003539_000029_015071_017069_034669_037023_189385,
  1_056884_000001_000001_000001_000015_000005_000021_000007_000005_000201_000881_000841_000827_000503_003545_017771_064481_065105_209947,
  1_056887_000001_000001_000001_000005_000003_000031_000083_000201_000455_000169_001797_001769_001999_008629_014313_016851_064955_180631,
  1_056893_000001_000001_000005_000005_000001_000035_000049_000061_000499_000619_001509_003015_000237_008979_003471_011513_080193_024135,
  1_056906_000001_000003_000003_000009_000025_000029_000111_000019_000339_000739_001751_002671_005399_005965_003943_045577_070605_203117,
  1_056932_000001_000003_000003_000007_000003_000009_000015_000147_000177_000545_000161_002211_004653_015891_015939_019153_077827_245787,
  1_056959_000001_000001_000001_000001_000025_000047_000037_000159_000273_000825_001037_002047_007149_005517_000699_049687_110115_159475,
  1_056965_000001_000003_000001_000007_000007_000055_000077_000231_000197_000381_002013_002421_007551_009955_021031_011365_048271_190147,
  1_056983_000001_000001_000005_000009_000025_000001_000081_000145_000215_000427_000905_002307_006149_012777_000131_057091_106137_024625,
  1_057018_000001_000003_000001_000013_000013_000063_000103_000245_000275_000745_000841_002993_002083_008903_004499_055979_022323_244447,
  1_057023_000001_000001_000005_000005_000015_000011_000059_000181_000191_000219_000599_000059_001079_004445_016537_031127_103257_233855,
  1_057025_000001_000003_000007_000009_000009_000037_000109_000041_000145_001001_000609_000551_006843_013791_015103_027851_007693_145207,
  1_057032_000001_000003_000001_000009_000003_000035_000063_000219_000049_000567_001537_001327_006487_016039_026019_013851_116929_175121,
  1_057040_000001_000003_000007_000015_000017_000031_000027_000091_000241_000229_000485_002601_003859_012609_019847_031939_050815_235529,
  1_057046_000001_000001_000005_000015_000027_000031_000003_000047_000069_000427_000095_001445_001223_002953_032343_006841_067851_079561,
  1_057071_000001_000003_000005_000013_000013_000037_000019_000127_000259_000139_001597_000651_004845_006413_018205_056005_032107_140783,
  1_057091_000001_000001_000007_000005_000015_000023_000081_000195_000127_000113_000499_000733_005907_012107_018105_028113_016111_152327,
  1_057094_000001_000001_000005_000015_000009_000049_000109_000181_000187_000591_001625_003641_000313_001225_011725_009047_030351_124301,
  1_057108_000001_000003_000001_000001_000009_000045_000103_000219_000155_000805_001775_000759_001687_011415_021623_037831_018995_021667,
  1_057122_000001_000003_000003_000005_000025_000013_000011_000037_000489_000935_000373_000811_005045_003615_002111_022909_117155_069483,
  1_057127_000001_000003_000003_000005_000009_000045_000071_000087_000265_000093_000161_002983_001023_003633_005965_009499_035653_219257,
  1_057168_000001_000001_000005_000013_000021_000027_000101_000231_000085_000469_001023_003735_005093_000253_022585_061975_081041_004175,
  1_057183_000001_000003_000001_000007_000005_000041_000105_000153_000391_000005_001917_000331_007679_014359_013177_040755_078669_133527,
  1_057184_000001_000003_000003_000015_000021_000061_000087_000063_000227_000195_001095_001629_007787_005887_020855_030203_061973_030627,
  1_057193_000001_000003_000001_000015_000031_000041_000125_000223_000201_000717_001309_000595_005333_010585_032525_008597_092637_111073,
  1_057202_000001_000003_000005_000003_000021_000029_000039_000105_000275_000515_000503_000079_006715_014203_014035_020871_122417_243167,
  1_057235_000001_000003_000007_000005_000029_000041_000003_000089_000165_000879_000773_003989_003945_004771_002809_059105_037177_193887,
  1_057237_000001_000003_000003_000003_000027_000001_000091_000191_000135_000257_000527_002971_007117_006013_008735_052363_110617_096959,
  1_057251_000001_000003_000007_000009_000003_000063_000067_000067_000231_000023_001539_000771_001485_004331_019231_050539_015081_075945,
  1_057289_000001_000003_000003_000011_000029_000011_000077_000067_000497_000861_000021_002939_002463_014435_027399_019733_118207_060909,
  1_057349_000001_000001_000005_000005_000001_000011_000117_000055_000485_000877_001213_002231_002613_014027_018491_045431_113303_028457,
  1_057359_000001_000003_000007_000001_000013_000049_000077_000059_000455_000251_001033_003451_007641_000389_003987_062361_090125_094569,
  1_057374_000001_000001_000007_000015_000003_000005_000045_000173_000343_000445_001871_002505_001385_002641_021299_035139_061781_101195,
  1_057377_000001_000003_000001_000009_000025_000027_000089_000123_000473_000901_001513_002585_005641_013123_022653_032985_015763_009161,
  1_057387_000001_000003_000003_000009_000029_000041_000005_000127_000489_000715_001981_003953_003557_010081_031913_052191_118727_004443,
  1_057415_000001_000001_000005_000001_000019_000057_000125_000033_000253_000297_000265_002249_006859_014971_003519_024783_127491_210441,
  1_057440_000001_000001_000007_000007_000031_000001_000047_000175_000305_000933_000679_000317_007511_013219_009509_061183_058907_072905,
  1_057446_000001_000001_000001_000007_000013_000049_000075_000085_000341_000911_001217_003631_001849_009715_023193_000947_106647_180455,
  1_057450_000001_000001_000007_000007_000001_000049_000091_000195_000329_000771_000607_001707_002723_000291_021393_006549_031645_151431,
  1_057469_000001_000003_000007_000005_000017_000057_000007_000231_000247_000217_001729_003231_007515_015341_018681_021733_028723_228187,
  1_057491_000001_000001_000005_000009_000005_000019_000121_000251_000043_000951_000957_000173_004863_005027_006781_029421_004877_047749,
  1_057503_000001_000003_000007_000007_000011_000033_000107_000233_000329_000589_000869_000913_007687_013223_027577_024379_013037_214713,
  1_057507_000001_000003_000007_000013_000001_000013_000121_000103_000387_000193_000543_003085_004323_009885_024499_034985_045763_013107]

def dirRows18_1_8 : List Nat := [
  1_057542_000001_000001_000003_000015_000025_000063_000085_000041_000457_000779_001199_002235_000309_002549_003341_036265_017873_032361,
  1_057569_000001_000003_000003_000003_000015_000031_000011_000057_000499_000415_001625_001195_006863_006073_025083_057705_076203_130993,
  1_057599_000001_000003_000005_000005_000021_000013_000043_000161_000255_000031_001901_003325_003209_009809_008227_009005_057263_095095,
  1_057601_000001_000001_000003_000015_000013_000033_000005_000123_000291_000579_001747_003319_007351_001679_011365_026909_074445_139017,
  1_057607_000001_000001_000003_000013_000017_000039_000001_000253_000487_000935_001711_001397_000503_007817_028509_020665_078551_204319,
  1_057608_000001_000001_000003_000001_000005_000039_000123_000105_000305_000077_000063_003285_007463_011199_000647_037757_091083_108325,
  1_057625_000001_000001_000007_000005_000009_000049_000121_000155_000389_000119_001327_003583_007715_002705_020047_019151_101455_205263,
  1_057644_000001_000001_000005_000007_000031_000023_000013_000109_000103_000041_000433_003609_004973_011481_008381_004725_113633_134651,
  1_057662_000001_000003_000007_000007_000025_000025_000107_000189_000089_000625_000187_002185_000713_010107_011139_063681_097005_079329,
  1_057664_000001_000003_000001_000011_000003_000041_000043_000161_000337_000955_001035_000451_005989_003593_018087_022667_110213_128545,
  1_057674_000001_000001_000005_000001_000025_000031_000095_000113_000205_000565_000557_003885_007163_010703_027159_011395_117459_052439,
  1_057698_000001_000001_000001_000005_000027_000031_000039_000061_000323_000983_001361_002387_005401_008287_017855_049783_065327_202861,
  1_057700_000001_000003_000005_000003_000031_000039_000105_000113_000183_000311_000667_000945_003677_014623_027907_016673_077899_182863,
  1_057709_000001_000001_000005_000003_000017_000027_000099_000093_000081_000805_001799_002855_006859_003917_026177_022307_059213_210123,
  1_057724_000001_000003_000005_000001_000019_000037_000051_000065_000495_000229_000229_001283_002967_005329_024339_058739_023145_007033,
  1_057728_000001_000003_000003_000015_000011_000051_000121_000041_000075_000845_001771_003625_006137_003463_011767_045181_070907_042771,
  1_057740_000001_000003_000007_000009_000015_000025_000055_000219_000265_000655_000167_001247_005409_005623_021045_012333_025799_218601,
  1_057745_000001_000003_000003_000013_000031_000039_000077_000155_000471_000969_000755_002745_003057_003621_032423_048687_009409_090997,
  1_057751_000001_000001_000003_000015_000027_000001_000077_000231_000147_000235_002027_004045_007431_014655_006361_043155_009839_161713,
  1_057774_000001_000003_000007_000005_000025_000019_000025_000075_000415_000931_000457_003691_000687_004849_015469_042871_037949_074163,
  1_057782_000001_000003_000005_000009_000017_000019_000029_000117_000387_001021_001159_002467_002585_002563_009155_044763_093319_006321,
  1_057796_000001_000003_000005_000007_000025_000033_000127_000175_000143_000705_000539_002563_000945_011369_019971_019019_116195_084121,
  1_057803_000001_000003_000007_000007_000005_000055_000029_000001_000419_000715_001275_002983_007853_012245_032109_027371_123547_082723,
  1_057823_000001_000001_000001_000013_000003_000029_000031_000213_000195_000609_001465_001711_006747_013309_001131_003151_048779_091571,
  1_057863_000001_000001_000005_000003_000017_000007_000103_000007_000217_000087_001641_000833_004551_014205_015119_006711_111273_200545,
  1_057894_000001_000003_000001_000005_000003_000039_000099_000015_000433_000895_000165_004049_003183_004385_024695_040009_067151_156643,
  1_057925_000001_000001_000007_000003_000029_000009_000015_000027_000109_001019_000327_002837_005297_012455_002355_037703_122995_177871,
  1_057971_000001_000001_000005_000015_000029_000005_000121_000117_000031_000155_001027_001105_008057_008677_009523_003019_098801_015539,
  1_058013_000001_000003_000007_000003_000001_000001_000037_000067_000471_000317_001571_002801_007383_004339_008095_045685_095885_039577,
  1_058020_000001_000003_000007_000013_000017_000013_000091_000079_000049_000321_001235_000311_000129_006537_006643_025813_048251_138823,
  1_058032_000001_000001_000005_000003_000021_000019_000067_000061_000153_000611_001819_003755_005959_003419_006117_001159_068925_146199,
  1_058038_000001_000001_000007_000009_000023_000003_000007_000013_000429_000463_000653_003461_006337_004511_018097_044837_099845_037101,
  1_058061_000001_000003_000005_000013_000009_000005_000123_000199_000083_000409_001391_001567_007327_008173_030971_018241_007755_185375,
  1_058069_000001_000003_000001_000007_000019_000051_000051_000023_000085_000923_001969_002329_007343_012489_016135_064783_117063_141071,
  1_058080_000001_000003_000001_000003_000023_000029_000005_000077_000207_000351_000367_002097_002639_009255_021971_064167_098069_081153,
  1_058089_000001_000001_000007_000015_000027_000001_000083_000255_000047_000935_000567_003573_003629_005833_000483_001001_009337_119847,
  1_058107_000001_000003_000007_000011_000031_000053_000025_000035_000463_000051_000401_003279_007709_011265_017905_040423_026277_043355,
  1_058121_000001_000001_000007_000005_000009_000015_000073_000217_000239_000405_001651_002131_006791_011241_021717_007393_077251_028131,
  1_058130_000001_000003_000005_000003_000013_000043_000115_000159_000215_000811_001349_002941_002073_001821_006891_017285_072027_137849,
  1_058146_000001_000003_000003_000003_000015_000011_000029_000053_000307_000409_001069_003713_003205_006185_002565_014973_046149_162527,
  1_058190_000001_000001_000003_000015_000021_000039_000061_000209_000211_000123_000697_002285_000859_002501_005847_056449_106575_261069,
  1_058195_000001_000003_000003_000005_000025_000021_000039_000131_000189_000747_001499_001865_003369_009161_012543_063155_070083_069441,
  1_058202_000001_000003_000001_000015_000031_000043_000127_000057_000169_000109_000979_001399_003065_005865_016891_056003_014319_094109,
  1_058237_000001_000001_000001_000013_000023_000057_000013_000239_000139_000041_001959_000429_000209_000543_021297_015343_016521_052305,
  1_058253_000001_000001_000007_000001_000017_000001_000115_000139_000093_000123_000867_003257_008135_012089_001503_033287_079283_151419,
  1_058299_000001_000003_000007_000007_000027_000017_000015_000253_000089_000959_000597_002193_003505_013865_002179_058711_114615_015227,
  1_058302_000001_000003_000007_000005_000001_000005_000105_000241_000361_000229_001069_003815_001409_004909_031785_046555_123523_053259,
  1_058327_000001_000001_000005_000005_000015_000049_000013_000195_000467_000285_001405_003011_002069_008331_013953_031107_046581_154615,
  1_058328_000001_000003_000005_000007_000021_000023_000017_000017_000345_000369_001521_003755_002165_015387_002851_011115_060483_236049,
  1_058364_000001_000003_000003_000001_000005_000041_000053_000239_000127_000237_000609_000927_003787_005059_001865_052991_056229_102093,
  1_058367_000001_000001_000007_000005_000023_000007_000015_000199_000325_000695_001525_003435_003997_011577_022985_057713_094309_218433,
  1_058375_000001_000003_000003_000005_000025_000025_000061_000099_000237_000447_001905_000783_005239_011415_016833_027815_115539_161111,
  1_058394_000001_000001_000005_000009_000031_000049_000055_000199_000159_000751_000849_001045_005485_008883_008549_011735_035983_161067,
  1_058405_000001_000001_000005_000009_000023_000051_000079_000171_000087_000493_001911_003867_003435_000493_016639_064085_097797_244959,
  1_058417_000001_000001_000005_000011_000029_000033_000015_000107_000283_000545_001995_000995_007181_003581_008621_042391_117997_000397,
  1_058424_000001_000003_000007_000013_000031_000025_000091_000075_000123_000451_001023_000375_004505_013235_008913_034389_077385_168659,
  1_058430_000001_000001_000003_000003_000003_000003_000085_000143_000173_000709_001313_000593_006931_014609_013803_030305_109089_011473,
  1_058452_000001_000003_000007_000005_000025_000045_000025_000223_000407_000597_000083_002543_003823_013959_009089_028325_029237_057147,
  1_058466_000001_000001_000001_000003_000025_000053_000057_000255_000231_000361_000109_000113_006091_013043_028399_029111_057987_137709,
  1_058468_000001_000001_000001_000005_000011_000025_000053_000141_000275_000237_001427_001691_006043_008951_010683_017477_117645_089007,
  1_058495_000001_000003_000003_000013_000007_000023_000073_000213_000285_000667_001765_001545_001401_012483_006349_047205_025791_016749,
  1_058501_000001_000001_000001_000015_000031_000045_000105_000249_000385_000607_000723_000745_007037_015735_003637_029013_127315_165507,
  1_058544_000001_000001_000007_000005_000021_000063_000095_000247_000161_000839_000939_000931_004277_007363_008289_055183_122413_152997,
  1_058571_000001_000003_000007_000011_000015_000059_000091_000005_000209_000031_001581_000979_006289_011443_026641_020183_106907_128647,
  1_058609_000001_000001_000003_000015_000021_000033_000117_000089_000457_000405_001971_002211_004379_016189_007933_039351_079813_056373,
  1_058610_000001_000003_000003_000009_000005_000009_000093_000075_000055_000271_000321_003143_003893_002601_026169_035179_043063_156635,
  1_058616_000001_000003_000003_000011_000029_000037_000095_000249_000221_000965_000423_001637_004663_014839_016757_004261_128453_165593,
  1_058619_000001_000003_000003_000007_000001_000055_000031_000235_000447_000839_000721_001125_006503_004019_023351_037057_096103_143805,
  1_058641_000001_000003_000007_000005_000031_000039_000007_000157_000469_000719_001613_000395_008133_009753_017323_013849_045409_007601,
  1_058642_000001_000003_000007_000007_000031_000037_000089_000215_000453_000659_000605_003325_000987_004611_029667_023229_004201_229675,
  1_058648_000001_000001_000005_000005_000003_000003_000021_000249_000377_000343_001751_000891_005275_014853_032703_051001_006759_162991,
  1_058660_000001_000003_000001_000013_000011_000021_000055_000017_000495_000481_001817_000919_002495_016367_003343_016997_083437_127791,
  1_058675_000001_000003_000001_000001_000005_000057_000065_000223_000033_000491_001953_001521_004903_005007_014583_017321_082231_206299,
  1_058678_000001_000003_000007_000011_000021_000045_000055_000141_000185_000379_000851_000885_003385_010311_000701_002983_071045_171525,
  1_058690_000001_000003_000007_000003_000029_000001_000053_000139_000007_000985_000291_003949_001163_014637_000363_059679_121571_121081,
  1_058735_000001_000003_000007_000001_000031_000001_000111_000019_000421_000917_001529_001361_004461_012457_009791_019985_077283_117059,
  1_058760_000001_000003_000001_000005_000007_000055_000093_000243_000477_000193_001983_000489_003735_001391_024035_036395_049101_175861,
  1_058766_000001_000001_000001_000011_000003_000025_000069_000167_000351_000193_001299_000617_007455_002545_018359_009951_119513_128139,
  1_058799_000001_000003_000003_000007_000005_000023_000101_000047_000385_000591_000345_003501_000531_003277_028945_018695_058587_087221,
  1_058825_000001_000001_000003_000003_000029_000047_000005_000091_000365_000001_002015_000323_001601_010615_028975_060263_004813_143351,
  1_058836_000001_000003_000001_000007_000025_000043_000065_000211_000091_000759_000985_003675_005701_004373_027781_051949_040667_102665,
  1_058855_000001_000003_000003_000005_000003_000043_000091_000033_000247_000593_000849_001955_007769_002307_002877_026037_028907_211021,
  1_058864_000001_000003_000005_000015_000029_000029_000085_000097_000099_000979_002033_001415_002955_015733_005567_006241_100195_089077,
  1_058910_000001_000003_000007_000013_000013_000019_000121_000211_000381_000073_001131_001881_001693_007873_027557_000201_024997_202471,
  1_058937_000001_000003_000001_000015_000015_000033_000011_000099_000479_000271_001873_001117_003559_006605_015995_044805_012465_071933,
  1_058943_000001_000003_000005_000003_000019_000061_000015_000055_000423_000431_001321_003345_001633_004587_024909_054985_031831_181083,
  1_058952_000001_000001_000003_000005_000029_000043_000049_000205_000415_000907_001651_000057_003043_010763_016255_009567_059453_135637,
  1_058965_000001_000003_000003_000001_000017_000011_000029_000033_000293_000203_001687_001565_006131_005435_029023_028425_102151_251913,
  1_058988_000001_000001_000005_000007_000009_000009_000043_000191_000269_000681_000607_003045_002799_014919_008083_057781_019345_049365,
  1_058994_000001_000001_000005_000013_000011_000053_000067_000127_000117_000395_000575_001651_002601_015019_021413_034433_066847_084159,
  1_058999_000001_000003_000005_000005_000015_000059_000033_000041_000301_000699_001479_002285_001813_002459_004775_053213_026039_223155,
  1_059006_000001_000003_000001_000015_000017_000057_000005_000211_000357_000175_000945_003625_003943_012871_026805_029305_008839_107837,
  1_059029_000001_000003_000005_000015_000021_000041_000105_000229_000265_000777_002047_000767_002901_008873_007631_018545_086697_252965,
  1_059033_000001_000001_000005_000011_000031_000063_000115_000119_000271_000921_001221_003341_006083_004293_028581_057323_033889_112577,
  1_059069_000001_000001_000005_000005_000031_000021_000119_000093_000287_000139_000451_002535_003925_010671_021279_055071_076127_248203,
  1_059096_000001_000003_000007_000011_000019_000061_000061_000053_000203_000181_000963_003581_000519_014679_007717_031981_128709_197269,
  1_059106_000001_000001_000001_000013_000025_000023_000089_000095_000221_000803_001433_003617_003217_002033_007859_014279_107239_005139,
  1_059123_000001_000003_000007_000003_000029_000041_000087_000021_000071_000959_001149_002961_007471_011665_016037_005791_110155_035365,
  1_059130_000001_000001_000001_000011_000021_000049_000101_000045_000311_000529_001301_001377_000983_003937_006967_008413_033511_009617,
  1_059152_000001_000003_000003_000005_000015_000041_000107_000049_000409_000537_000289_003351_005307_016221_000907_039847_061579_161487]

def dirRows18_1_9 : List Nat := [
  1_059162_000001_000001_000003_000011_000005_000049_000071_000107_000431_000469_000453_001367_007811_010485_003861_062797_082025_253785,
  1_059180_000001_000001_000003_000003_000027_000019_000089_000013_000445_000915_001259_001423_003987_003661_018183_018521_018831_191447,
  1_059183_000001_000001_000007_000005_000013_000015_000009_000089_000129_000949_001733_000245_006815_008477_001273_034737_033027_191415,
  1_059195_000001_000001_000007_000015_000025_000063_000083_000195_000319_000987_001395_003559_006287_005139_025967_048711_058467_110983,
  1_059205_000001_000001_000003_000009_000005_000003_000035_000171_000015_000883_000915_002451_000871_011741_032715_033475_081711_259157,
  1_059210_000001_000001_000007_000013_000023_000063_000033_000011_000117_000351_001701_000671_006753_000005_009477_054701_065507_242621,
  1_059217_000001_000003_000007_000011_000021_000037_000127_000143_000369_000819_001369_000093_007009_003773_030153_030181_120783_137857,
  1_059218_000001_000003_000003_000007_000027_000061_000015_000141_000067_000815_001449_001129_004703_003811_003067_061697_008881_110957,
  1_059236_000001_000001_000007_000013_000031_000021_000059_000075_000335_000851_000503_000251_004869_011789_030871_014641_019319_156843,
  1_059267_000001_000003_000005_000005_000009_000041_000011_000067_000231_000945_000037_002925_005723_009053_013477_059735_075181_060335,
  1_059298_000001_000001_000005_000001_000013_000039_000081_000043_000363_000611_001661_003833_007387_010531_021319_055579_102705_103009,
  1_059318_000001_000003_000001_000007_000023_000025_000067_000179_000327_000401_001693_001453_004773_006363_027169_049747_029055_049145,
  1_059321_000001_000003_000005_000007_000013_000047_000005_000175_000369_000921_000507_000113_006069_010919_011099_019795_095819_052419,
  1_059327_000001_000001_000001_000005_000005_000053_000093_000047_000075_000837_000109_003691_006961_010715_014269_063791_001941_136899,
  1_059354_000001_000001_000001_000003_000001_000063_000057_000117_000157_000327_000879_002411_003987_015393_008503_029829_077795_121307,
  1_059363_000001_000003_000005_000001_000025_000005_000047_000045_000433_000121_000607_001233_006433_003031_016369_058589_079357_151353,
  1_059377_000001_000001_000001_000001_000009_000015_000077_000163_000225_000445_001479_001267_002571_002661_021489_005433_123969_191967,
  1_059389_000001_000001_000007_000001_000009_000049_000017_000019_000449_000113_001289_002335_003309_002595_017819_018481_086605_125911,
  1_059403_000001_000001_000005_000011_000011_000023_000065_000147_000257_000625_001901_000913_005711_008159_016237_025133_100059_011395,
  1_059420_000001_000003_000007_000013_000005_000033_000089_000189_000171_000185_000751_002915_005025_015981_014853_012229_052829_059953,
  1_059444_000001_000003_000001_000013_000003_000037_000015_000087_000463_000655_001927_002705_001885_014801_003491_052835_081761_090273,
  1_059471_000001_000001_000007_000003_000005_000015_000029_000255_000199_000225_000647_003215_006795_003821_031763_031059_065495_089981,
  1_059476_000001_000001_000007_000007_000009_000025_000011_000085_000111_000283_000507_002077_002993_005415_031785_016495_082361_122105,
  1_059483_000001_000001_000003_000011_000027_000021_000127_000175_000397_000419_001115_002285_000223_003881_004187_053759_115035_181647,
  1_059502_000001_000003_000007_000011_000027_000031_000029_000233_000137_000827_001009_003879_007595_012989_027655_008517_028083_214985,
  1_059509_000001_000003_000005_000009_000025_000023_000085_000191_000475_000445_000621_001341_004045_004299_024933_032765_020219_086949,
  1_059538_000001_000003_000001_000005_000025_000035_000121_000033_000199_000405_000163_003487_001087_000743_021989_047273_049221_124831,
  1_059556_000001_000001_000005_000001_000007_000003_000091_000015_000335_000351_001311_000777_004303_007203_019465_009135_032251_069805,
  1_059571_000001_000003_000003_000007_000023_000055_000073_000077_000189_000801_001877_001901_002675_001015_003041_035925_125903_126227,
  1_059592_000001_000003_000003_000001_000001_000023_000105_000075_000435_000743_000651_001045_000579_013637_014821_062683_095229_156475,
  1_059610_000001_000003_000003_000005_000001_000053_000089_000239_000439_000195_000189_000731_001805_015123_023315_047737_029167_112081,
  1_059654_000001_000001_000005_000007_000031_000011_000119_000191_000155_000061_000247_000915_005813_000995_020093_023379_118969_065001,
  1_059677_000001_000003_000007_000003_000001_000061_000045_000085_000295_000269_000539_001787_006639_011093_011303_018509_077637_200743,
  1_059699_000001_000003_000001_000001_000013_000017_000075_000051_000199_000151_001529_001443_004983_006723_006071_034711_039159_005441,
  1_059716_000001_000003_000003_000003_000031_000015_000091_000125_000261_000683_001769_001697_002761_011373_013607_024933_019079_055497,
  1_059719_000001_000001_000001_000015_000021_000049_000117_000099_000029_000969_000463_003869_001251_008815_016443_046861_082839_233325,
  1_059737_000001_000003_000005_000003_000027_000039_000089_000225_000161_000063_000061_002875_004037_010413_005067_027893_078825_250207,
  1_059747_000001_000001_000001_000009_000013_000049_000093_000011_000023_000025_002003_000057_003065_011241_013935_002969_044235_039287,
  1_059789_000001_000003_000003_000009_000021_000005_000055_000247_000193_000523_000575_001235_003277_005253_005293_007919_007573_168809,
  1_059807_000001_000003_000001_000013_000029_000039_000043_000021_000511_000205_000303_000703_003861_002467_003909_031597_051081_009863,
  1_059811_000001_000003_000007_000001_000025_000055_000011_000131_000005_000049_000371_001683_001907_005661_001015_015171_101477_011221,
  1_059818_000001_000003_000005_000005_000009_000015_000093_000245_000357_000703_000701_003675_004527_009225_016137_055433_081887_099153,
  1_059825_000001_000001_000003_000003_000011_000001_000039_000251_000291_000599_000643_000231_004031_007055_000099_014039_081811_184251,
  1_059826_000001_000003_000005_000013_000029_000055_000011_000117_000325_000401_002013_003235_000995_009255_002741_008211_071451_180619,
  1_059832_000001_000001_000001_000005_000031_000041_000041_000175_000247_000003_000739_001391_003311_005975_016921_004291_075065_161745,
  1_059858_000001_000001_000007_000013_000023_000019_000013_000149_000203_000351_002033_001867_003871_014437_003793_017399_099577_171605,
  1_059860_000001_000001_000005_000011_000007_000009_000001_000195_000261_000977_000315_003771_001179_016281_020747_056309_108609_209205,
  1_059873_000001_000003_000003_000005_000019_000015_000123_000153_000325_000601_000393_000753_000093_004803_024343_042645_128209_045773,
  1_059876_000001_000003_000001_000013_000003_000029_000097_000095_000115_000539_000155_002789_001277_013127_020383_052807_097295_054589,
  1_059907_000001_000001_000001_000003_000025_000059_000027_000149_000365_000317_000773_003379_005931_014637_019881_037283_118027_021557,
  1_059928_000001_000003_000005_000003_000025_000011_000101_000221_000199_000689_000515_002255_006107_006259_002853_019039_117089_107181,
  1_059933_000001_000003_000005_000007_000029_000063_000019_000113_000249_000147_000737_003959_000209_007001_024263_020443_099923_145709,
  1_059938_000001_000001_000005_000009_000025_000037_000069_000041_000087_000369_001913_002255_007581_005301_025751_024981_001183_171969,
  1_059940_000001_000003_000003_000001_000009_000025_000055_000005_000267_000295_000043_000819_004569_007065_031527_057811_048721_107707,
  1_059958_000001_000001_000007_000009_000019_000019_000001_000199_000371_001003_000597_002097_004071_006185_000879_013545_030033_120313,
  1_059984_000001_000001_000001_000007_000009_000011_000051_000155_000309_000493_000899_003121_002085_010541_021979_004725_070381_069643,
  1_060020_000001_000001_000001_000001_000013_000045_000123_000119_000459_000295_001005_004093_000393_011063_027235_028209_001671_215619,
  1_060024_000001_000001_000007_000013_000019_000025_000125_000255_000509_000529_001577_003221_004051_007697_002065_042597_086295_131719,
  1_060033_000001_000003_000003_000009_000019_000013_000021_000199_000097_000949_001297_000379_001801_013247_022563_049517_022757_087371,
  1_060034_000001_000003_000003_000001_000017_000063_000109_000175_000301_000565_001181_000465_003457_007175_021225_033149_122169_148043,
  1_060063_000001_000001_000001_000001_000005_000007_000021_000251_000053_000369_000955_000583_004703_009729_015853_055701_029317_000027,
  1_060070_000001_000003_000003_000001_000031_000003_000053_000057_000231_000441_000109_000149_008107_002303_029729_042279_046909_209877,
  1_060087_000001_000001_000001_000011_000023_000057_000063_000189_000259_000657_001653_001155_002885_003317_022559_003145_019151_172507,
  1_060091_000001_000003_000007_000005_000031_000063_000103_000147_000287_000685_001197_000099_004907_012335_012001_020303_075503_231259,
  1_060105_000001_000003_000003_000013_000015_000033_000063_000011_000099_000299_000097_002669_003635_009969_001525_036555_085215_086915,
  1_060126_000001_000003_000007_000005_000025_000047_000025_000061_000227_000939_001719_000245_002389_014663_030671_022667_038873_245509,
  1_060132_000001_000001_000003_000005_000025_000015_000105_000203_000057_000961_001941_001241_003163_006203_019631_010383_019235_057569,
  1_060154_000001_000001_000003_000009_000001_000035_000041_000003_000449_000087_000641_000269_001529_014559_016571_004863_021625_000921,
  1_060174_000001_000001_000007_000011_000025_000053_000085_000209_000181_000417_001657_002117_004581_007069_015533_064475_082381_146943,
  1_060181_000001_000003_000001_000007_000017_000053_000005_000199_000347_000887_001041_000595_001843_010931_030559_042849_073723_220473,
  1_060198_000001_000003_000007_000007_000021_000053_000105_000021_000141_000575_001965_002187_007293_013675_002471_001259_042485_062911,
  1_060212_000001_000001_000003_000009_000005_000027_000021_000101_000101_000071_001215_003235_002451_014835_027817_030079_124301_253691,
  1_060247_000001_000001_000007_000001_000011_000037_000105_000127_000115_000157_000279_002425_002139_000131_022717_040803_074867_086021,
  1_060254_000001_000001_000001_000007_000011_000059_000095_000061_000255_000523_000501_002895_007531_008151_018393_042069_120809_236537,
  1_060275_000001_000001_000001_000007_000017_000023_000031_000059_000377_000187_000873_001565_003459_002975_011633_013247_013095_193803,
  1_060284_000001_000003_000007_000001_000025_000003_000085_000005_000485_000451_001385_001663_004825_014019_029437_033717_105343_161335,
  1_060317_000001_000001_000001_000003_000027_000043_000071_000167_000425_000579_001739_003557_007403_002023_006533_061177_119273_085229,
  1_060318_000001_000001_000007_000003_000031_000037_000019_000213_000373_000505_000097_003669_007005_002205_026519_061999_018395_025967,
  1_060346_000001_000003_000003_000007_000029_000017_000009_000137_000265_000875_000887_003029_003295_011619_008357_046241_023543_043191,
  1_060360_000001_000001_000005_000001_000025_000043_000033_000133_000065_000007_001581_003577_005997_006129_030649_018923_056459_227869,
  1_060380_000001_000001_000005_000013_000027_000045_000027_000111_000429_000565_001449_001475_006613_004469_016083_042349_066843_214875,
  1_060389_000001_000003_000001_000001_000021_000021_000107_000007_000015_000675_000233_004021_001097_001393_006445_003323_102435_249355,
  1_060393_000001_000001_000005_000015_000017_000051_000099_000249_000437_000667_001921_002371_003813_010543_000019_039079_116825_242821,
  1_060401_000001_000001_000001_000001_000007_000015_000027_000029_000161_000037_001847_000287_004379_001399_024547_060361_068131_232883,
  1_060407_000001_000001_000003_000009_000017_000021_000041_000169_000061_000771_000241_001435_004151_001789_012195_027239_062371_165145,
  1_060408_000001_000003_000005_000015_000031_000019_000127_000181_000463_000183_000749_000253_002403_001363_003965_007953_124025_226691,
  1_060462_000001_000001_000003_000007_000017_000057_000085_000089_000017_000033_000819_002191_001525_015651_023483_026027_086379_040191,
  1_060484_000001_000001_000005_000001_000009_000045_000065_000065_000359_000005_000531_002581_006313_013219_006005_036215_016275_208253,
  1_060505_000001_000003_000001_000001_000023_000015_000051_000043_000085_000461_000773_000219_002681_003377_009797_054469_112871_231533,
  1_060521_000001_000003_000007_000007_000015_000009_000097_000115_000301_000493_001085_002021_002305_015003_011381_009339_063015_179115,
  1_060527_000001_000003_000005_000003_000003_000061_000111_000103_000283_000007_000143_000353_007815_007901_025795_007577_092991_228315,
  1_060532_000001_000001_000007_000013_000029_000003_000053_000105_000083_000531_000497_000729_001375_007063_018655_035219_009671_102913,
  1_060545_000001_000001_000005_000015_000011_000007_000065_000031_000015_000921_000743_001469_005669_005437_020019_028123_005717_006181,
  1_060546_000001_000003_000003_000015_000019_000001_000003_000183_000315_000595_001033_003259_007815_008281_032103_008699_059149_056657,
  1_060555_000001_000001_000001_000007_000009_000001_000087_000081_000267_000637_001617_002113_000487_000023_011213_029211_092715_177767,
  1_060563_000001_000003_000005_000013_000029_000037_000031_000055_000343_000759_000813_002945_007189_004821_030661_038373_002793_098683,
  1_060586_000001_000003_000005_000007_000009_000043_000113_000145_000103_000303_001065_003781_003527_009449_017355_038301_074859_030735,
  1_060626_000001_000001_000001_000001_000003_000053_000053_000027_000119_000701_001777_003959_005911_008473_024997_017557_011593_201381,
  1_060637_000001_000003_000003_000009_000003_000003_000107_000115_000423_000531_000735_000931_008053_004661_001919_029551_062515_210255,
  1_060665_000001_000001_000003_000009_000021_000021_000117_000067_000301_000049_002025_000781_007951_015719_027287_034551_115241_243981]

def dirRows18_1_10 : List Nat := [
  1_060673_000001_000001_000007_000009_000009_000025_000087_000229_000375_000353_000445_003169_001865_007305_011175_047081_028609_107301,
  1_060685_000001_000003_000003_000011_000007_000031_000019_000177_000017_000535_001353_002587_007723_008039_013607_005017_104937_207761,
  1_060703_000001_000001_000005_000003_000011_000027_000029_000193_000235_000435_001451_003487_005749_004825_009487_053933_092061_223305,
  1_060734_000001_000003_000003_000003_000005_000005_000099_000237_000091_000945_001373_003303_003079_005345_006843_034131_062851_259561,
  1_060742_000001_000001_000003_000007_000007_000025_000011_000027_000329_000037_000307_000771_000659_013045_025767_018887_054407_251313,
  1_060790_000001_000001_000001_000011_000029_000059_000037_000121_000281_000055_000495_000159_003925_004447_014825_024831_103147_211951,
  1_060830_000001_000003_000003_000007_000023_000031_000059_000067_000303_000383_001179_002347_004001_014797_014579_055365_112239_065309,
  1_060848_000001_000003_000003_000009_000015_000017_000061_000123_000339_000319_000765_001517_001269_000069_009065_032347_021377_038449,
  1_060857_000001_000003_000005_000003_000007_000035_000071_000063_000251_000457_000351_000385_004041_011489_014511_011875_045307_205041,
  1_060871_000001_000001_000001_000007_000001_000025_000115_000195_000041_001001_000835_000767_007991_007475_022397_036899_077255_194827,
  1_060875_000001_000003_000003_000011_000007_000049_000045_000013_000373_000167_000741_002569_003781_001131_002909_040387_077877_201859,
  1_060913_000001_000003_000005_000003_000017_000011_000123_000137_000065_000835_001385_001157_007387_012301_005759_013137_030595_050923,
  1_060923_000001_000001_000005_000007_000001_000055_000057_000097_000377_000223_000115_002515_002565_014965_010485_023957_108239_160707,
  1_060972_000001_000003_000001_000009_000015_000017_000081_000065_000387_000275_000997_001485_004129_000999_004915_055867_103799_191829,
  1_060989_000001_000001_000001_000005_000015_000005_000035_000167_000249_000419_000267_000503_000469_003163_019939_065501_088573_011621,
  1_061001_000001_000003_000003_000013_000007_000009_000101_000125_000371_000097_001855_001755_004103_012283_018655_005965_017743_254779,
  1_061002_000001_000001_000003_000007_000013_000015_000119_000227_000451_000863_001005_000491_006515_000717_012783_014161_106249_185297,
  1_061019_000001_000001_000007_000013_000017_000023_000095_000143_000133_000219_000897_002291_007469_000923_022323_060583_002457_197231,
  1_061022_000001_000001_000001_000011_000003_000025_000115_000187_000319_000999_000867_001725_006969_000239_002527_055283_091099_252153,
  1_061059_000001_000001_000007_000009_000003_000037_000107_000025_000425_000095_000631_002831_001265_011509_018865_039791_022281_220517,
  1_061065_000001_000003_000005_000001_000001_000047_000121_000173_000489_000241_000003_003707_007081_005341_023143_007321_030605_191665,
  1_061066_000001_000001_000007_000007_000007_000027_000023_000043_000145_000011_001155_000691_006993_009509_005991_040705_058215_202915,
  1_061071_000001_000003_000005_000001_000031_000001_000007_000189_000379_000431_000417_003843_003885_003263_016333_058123_068307_033795,
  1_061076_000001_000001_000005_000005_000019_000027_000019_000217_000509_000535_000287_001637_004829_002665_015393_035185_125335_010909,
  1_061141_000001_000003_000005_000007_000025_000013_000067_000243_000255_001021_001203_000821_007811_000149_026731_012913_018171_101385,
  1_061148_000001_000001_000001_000003_000025_000061_000059_000207_000449_000789_001831_001731_000513_010099_000291_001963_100233_021847,
  1_061167_000001_000001_000007_000001_000027_000019_000045_000081_000479_000031_000707_002669_003589_015411_012089_038235_060897_135451,
  1_061190_000001_000003_000005_000015_000011_000003_000113_000169_000171_000021_001291_002031_002023_005783_006137_054637_050247_233753,
  1_061218_000001_000001_000005_000001_000011_000013_000073_000097_000269_000801_001015_001329_001779_015225_024251_035191_008619_130993,
  1_061247_000001_000001_000007_000009_000009_000019_000035_000255_000505_000513_000547_000405_003065_004965_030877_050091_081319_029273,
  1_061256_000001_000001_000001_000009_000007_000061_000045_000075_000343_000911_001683_000453_001225_010939_019901_063685_123507_252027,
  1_061289_000001_000001_000005_000011_000021_000055_000037_000161_000143_000463_001937_003349_002953_014827_007893_026581_128459_072325,
  1_061292_000001_000003_000005_000009_000031_000057_000115_000077_000225_000859_000621_000731_005677_000759_020773_052285_065555_004303,
  1_061307_000001_000001_000003_000015_000023_000015_000049_000171_000137_000449_000855_000565_005579_005957_013643_008979_090327_116349,
  1_061319_000001_000001_000003_000005_000009_000013_000027_000043_000391_000595_000731_000101_007121_013555_029181_038273_042309_175297,
  1_061353_000001_000001_000003_000011_000003_000059_000017_000143_000251_000047_001391_001297_000023_015871_013153_044081_065423_054875,
  1_061362_000001_000003_000007_000011_000025_000043_000003_000163_000273_000277_000755_002743_005909_010841_031331_064131_013945_091557,
  1_061379_000001_000003_000001_000013_000031_000035_000005_000165_000417_000623_001083_001221_001051_008917_006725_011385_076315_119837,
  1_061382_000001_000001_000005_000003_000021_000053_000047_000247_000471_000877_000709_002425_000003_001963_024331_052151_098859_119033,
  1_061433_000001_000001_000007_000003_000029_000029_000043_000059_000503_000891_000763_002927_001613_009091_010393_036003_061147_003437,
  1_061434_000001_000001_000005_000015_000027_000059_000073_000163_000425_000855_000349_003451_005779_010523_009103_046477_129873_039091,
  1_061454_000001_000003_000007_000015_000025_000045_000077_000171_000467_001017_001553_001877_005507_003909_012157_060441_098261_037781,
  1_061461_000001_000001_000007_000013_000013_000039_000099_000051_000197_000327_001101_002679_008025_011853_007763_062537_096999_088673,
  1_061475_000001_000003_000001_000011_000005_000061_000029_000219_000471_000387_000319_000433_005383_003933_027603_061171_104711_233295,
  1_061481_000001_000003_000005_000011_000015_000023_000091_000119_000207_000717_001333_000783_000437_013073_010923_027049_087233_174899,
  1_061534_000001_000001_000001_000001_000013_000019_000109_000139_000183_000299_001023_003265_005153_006307_027879_055311_095201_019481,
  1_061547_000001_000001_000005_000011_000013_000061_000081_000115_000053_000483_000693_003527_005033_008527_031345_046155_012403_126815,
  1_061564_000001_000003_000007_000003_000027_000007_000073_000227_000269_000683_000719_000763_005417_009523_013625_006945_116225_223093,
  1_061568_000001_000003_000005_000009_000021_000051_000111_000157_000451_000247_001375_001631_002783_003371_022713_034153_041949_141351,
  1_061588_000001_000001_000005_000001_000021_000019_000045_000069_000041_000453_000523_003163_007351_004467_018865_035371_129577_078039,
  1_061604_000001_000003_000005_000001_000029_000033_000013_000019_000341_000321_000117_001187_007021_005785_005553_058055_113557_046957,
  1_061626_000001_000001_000005_000005_000013_000059_000047_000059_000069_000125_001491_002813_005005_005973_003145_027579_007763_129949,
  1_061645_000001_000001_000007_000011_000011_000007_000117_000235_000407_000749_001925_001735_004499_013027_019355_001981_105657_242853,
  1_061646_000001_000001_000007_000001_000015_000019_000005_000247_000203_000707_000809_002085_005801_009947_000569_009883_109861_156751,
  1_061654_000001_000003_000005_000003_000013_000059_000067_000181_000261_000873_001589_002249_007213_014625_028403_041101_073439_046873,
  1_061663_000001_000001_000005_000007_000003_000063_000079_000115_000123_000485_001373_003781_004315_004627_029003_064101_067521_184053,
  1_061669_000001_000001_000003_000009_000011_000057_000093_000243_000505_000189_000449_000643_005267_007447_032265_044095_063015_036905,
  1_061702_000001_000003_000007_000013_000025_000059_000031_000093_000401_000041_000183_000759_002473_008705_008211_013543_059749_235217,
  1_061705_000001_000001_000005_000005_000029_000003_000065_000133_000325_000239_000649_003225_004095_011691_004479_015419_100551_261981,
  1_061714_000001_000003_000007_000001_000017_000011_000063_000097_000431_000161_001437_003679_001643_010583_020731_045919_094093_147067,
  1_061739_000001_000001_000007_000001_000025_000013_000063_000155_000221_000345_000189_001199_005465_014767_026263_054093_023697_071231,
  1_061744_000001_000001_000007_000003_000003_000019_000023_000075_000381_000339_001989_001137_006449_001437_032279_017195_117423_259311,
  1_061749_000001_000003_000005_000003_000027_000045_000117_000113_000129_000585_002019_000807_005573_007407_009957_008741_052333_115607,
  1_061776_000001_000001_000003_000007_000009_000005_000077_000009_000417_000725_000429_001657_005445_001901_028745_026807_111743_169739,
  1_061786_000001_000003_000001_000005_000007_000063_000051_000183_000117_000383_000435_000755_007849_005997_032697_005789_005189_080645,
  1_061822_000001_000001_000003_000015_000005_000047_000105_000175_000041_000275_001441_003183_003651_009561_005749_020431_045969_059473,
  1_061826_000001_000001_000001_000011_000013_000035_000019_000129_000125_000035_000339_003099_005337_015605_010213_001171_061869_216681,
  1_061862_000001_000003_000007_000001_000007_000025_000023_000009_000431_000073_001803_003969_007853_012845_008075_014553_124825_050561,
  1_061865_000001_000001_000001_000007_000029_000021_000079_000247_000313_000143_000059_002689_005643_000827_026597_056423_107903_180809,
  1_061868_000001_000003_000007_000001_000003_000003_000025_000039_000269_000529_000067_003703_002163_012417_006307_029883_040303_171831,
  1_061879_000001_000003_000007_000013_000001_000019_000071_000245_000267_000105_000749_001203_007953_001881_009273_004629_071793_195393,
  1_061885_000001_000001_000001_000015_000003_000049_000053_000145_000047_000959_001107_001361_004517_016055_032119_058433_110123_081487,
  1_061900_000001_000003_000001_000001_000005_000003_000099_000093_000257_000659_000019_003789_000203_006183_011571_054845_080591_243303,
  1_061905_000001_000003_000007_000001_000001_000007_000027_000011_000255_000261_000769_002877_006013_008431_025669_043591_122501_208947,
  1_061906_000001_000001_000007_000007_000003_000025_000117_000019_000015_000843_000401_000613_000801_010579_000129_012249_107465_095953,
  1_061962_000001_000001_000003_000005_000001_000035_000095_000093_000243_000937_001543_003443_000175_002199_012521_002521_087225_038631,
  1_061967_000001_000003_000007_000013_000021_000029_000081_000139_000247_000937_001835_003887_006917_015709_020947_003341_125521_247195,
  1_061972_000001_000001_000005_000011_000031_000019_000111_000215_000191_000347_001215_001757_006751_003099_000755_043753_002813_159123,
  1_061976_000001_000003_000003_000003_000031_000005_000035_000087_000293_000581_001501_003255_007041_005233_002053_063403_037943_012115,
  1_062027_000001_000001_000007_000015_000011_000031_000005_000123_000225_000703_000733_000635_002193_003059_030933_043149_079409_106995,
  1_062048_000001_000003_000001_000007_000011_000021_000045_000135_000099_000883_000085_003861_006617_007169_029887_000329_042487_129001,
  1_062051_000001_000001_000001_000003_000011_000053_000031_000245_000141_000667_001615_003311_001475_012785_003509_047153_105747_141275,
  1_062066_000001_000001_000003_000015_000007_000015_000055_000013_000465_000707_001299_001393_000399_009229_004897_050313_001275_131811,
  1_062081_000001_000001_000003_000015_000005_000057_000043_000019_000335_000929_000459_000327_005715_007173_027643_000535_046221_144619,
  1_062108_000001_000003_000005_000001_000009_000001_000063_000187_000071_000899_000969_001349_001553_015593_022783_000211_041643_163981,
  1_062178_000001_000001_000001_000013_000003_000063_000035_000037_000311_000253_001393_000629_005299_014837_015053_028041_081541_149037,
  1_062189_000001_000003_000003_000011_000013_000045_000017_000165_000497_000751_000635_002939_006891_014877_032763_020671_106845_258033,
  1_062224_000001_000001_000003_000011_000021_000007_000003_000247_000243_000219_001651_000929_002737_009507_031819_061389_014593_137207,
  1_062229_000001_000001_000007_000005_000015_000033_000031_000029_000467_000075_000523_001067_007313_011715_026581_047037_106385_199859,
  1_062282_000001_000003_000001_000007_000019_000059_000035_000035_000003_000899_000799_001379_005113_007653_017977_042197_052397_179705,
  1_062318_000001_000001_000007_000005_000013_000013_000067_000157_000181_000633_000021_003107_006301_007523_023981_009079_088875_195869,
  1_062320_000001_000003_000007_000009_000007_000009_000115_000049_000293_000691_001729_004087_006353_000963_012433_022135_096383_127745,
  1_062329_000001_000003_000007_000007_000021_000005_000043_000247_000089_000275_001219_000311_005677_007161_013853_038613_084935_223563,
  1_062341_000001_000003_000001_000005_000029_000061_000017_000235_000127_000979_000973_001463_000371_005567_006949_034165_003075_169347,
  1_062353_000001_000003_000003_000015_000025_000051_000043_000073_000007_000123_001761_001461_005291_014271_019335_045379_123469_190439,
  1_062359_000001_000003_000003_000013_000019_000057_000025_000161_000351_000703_000819_000753_003101_009043_019179_022665_118533_045817,
  1_062382_000001_000003_000005_000015_000003_000033_000015_000063_000251_000087_000611_001187_002639_006001_016135_027505_071077_034101,
  1_062389_000001_000001_000005_000003_000031_000005_000013_000239_000119_000803_001881_003479_001933_006421_021411_062923_076851_211029,
  1_062396_000001_000003_000001_000011_000013_000059_000013_000077_000087_000343_001733_003493_005937_015733_007763_012839_068639_070965,
  1_062425_000001_000001_000001_000003_000005_000019_000073_000109_000197_001007_001369_000623_003249_009263_012463_037105_040599_115323]

def dirRows18_1_11 : List Nat := [
  1_062455_000001_000001_000007_000001_000021_000023_000027_000221_000117_000027_001811_000837_007355_008083_012657_034137_102025_006511,
  1_062484_000001_000003_000007_000013_000013_000029_000007_000103_000511_000449_001443_000775_003503_001057_008809_048583_027649_206219,
  1_062494_000001_000001_000007_000001_000015_000037_000053_000205_000393_000691_000989_003493_007813_012371_018125_062569_057075_100625,
  1_062507_000001_000003_000005_000007_000011_000011_000055_000007_000487_000861_001589_001003_000607_010031_022481_041905_067791_168167,
  1_062512_000001_000003_000001_000009_000021_000031_000025_000187_000315_000379_000961_002721_003395_012321_021693_056977_073197_160023,
  1_062550_000001_000003_000003_000007_000009_000025_000103_000001_000013_001021_001777_001015_002269_002131_000191_002561_074755_027131,
  1_062577_000001_000001_000003_000013_000021_000029_000097_000153_000499_000207_000719_000585_008155_002873_022073_045933_092875_019205,
  1_062590_000001_000003_000007_000015_000013_000031_000043_000223_000405_000839_001241_002219_006911_009469_024477_063157_095503_128431,
  1_062599_000001_000003_000005_000015_000005_000011_000079_000129_000235_000171_000289_001791_006061_009107_013859_055923_030197_111025,
  1_062617_000001_000001_000007_000011_000013_000023_000051_000139_000219_000467_001923_002847_001977_001503_001939_055579_065357_050047,
  1_062679_000001_000003_000007_000011_000027_000025_000091_000095_000073_000189_001537_000273_000725_001215_015255_018847_067419_162153,
  1_062702_000001_000003_000003_000011_000003_000063_000049_000131_000219_000285_000819_002801_002645_002943_015055_015659_130641_082913,
  1_062745_000001_000001_000003_000007_000017_000019_000037_000059_000391_001009_001569_002569_002519_000033_018827_023277_094797_103673,
  1_062772_000001_000003_000005_000009_000027_000057_000069_000185_000049_000829_000029_001247_006129_014935_008005_048343_055789_170099,
  1_062794_000001_000003_000003_000007_000019_000055_000077_000231_000079_000787_001597_002701_004999_004247_031849_007797_118993_077871,
  1_062835_000001_000001_000007_000013_000005_000045_000105_000137_000239_000923_000593_003227_003603_015463_015533_055285_095295_141951,
  1_062842_000001_000003_000001_000005_000029_000003_000113_000241_000255_000181_001933_002579_001865_011083_008023_034271_078603_240781,
  1_062847_000001_000001_000003_000007_000017_000021_000123_000075_000305_000485_000009_003037_000677_008001_016803_025851_121773_077729,
  1_062857_000001_000003_000001_000005_000023_000007_000039_000025_000381_001003_000361_000995_001751_009599_006399_009627_019303_249899,
  1_062894_000001_000003_000005_000005_000013_000039_000065_000145_000351_000135_000981_003657_004711_013649_017253_046443_099187_176683,
  1_062911_000001_000003_000001_000009_000009_000041_000079_000237_000445_000507_001947_002905_008161_000715_024499_062397_026393_197221,
  1_062928_000001_000003_000005_000003_000023_000009_000107_000121_000059_000265_000177_003495_000391_004537_032099_045217_128285_259285,
  1_062954_000001_000003_000003_000015_000005_000061_000087_000209_000139_000461_000485_003261_007425_006193_022221_022145_093989_101459,
  1_062964_000001_000003_000001_000001_000015_000051_000029_000145_000385_000695_000375_003743_001387_015385_007995_022993_064115_239897,
  1_062977_000001_000001_000005_000015_000009_000011_000073_000219_000293_000941_000477_003935_002717_009559_020537_006935_039711_013623,
  1_062984_000001_000003_000003_000011_000003_000023_000127_000021_000061_000059_001685_000507_003883_006587_006355_065407_054311_228555,
  1_063007_000001_000003_000001_000001_000025_000047_000051_000111_000077_000871_001045_004017_007683_007729_024155_003481_031749_245155,
  1_063017_000001_000003_000005_000001_000025_000029_000119_000131_000475_000763_001639_001937_007387_002307_024081_034797_091785_052055,
  1_063058_000001_000001_000005_000001_000029_000019_000119_000111_000119_000751_001079_001911_004085_008909_004351_030037_037691_057175,
  1_063067_000001_000001_000007_000007_000027_000033_000071_000189_000105_000821_001543_002939_003829_006485_022235_007097_076987_207121,
  1_063085_000001_000001_000003_000003_000007_000007_000065_000121_000355_000405_001019_001779_007301_010609_025927_016501_037287_133383,
  1_063150_000001_000001_000003_000011_000031_000057_000109_000197_000165_000711_000271_000653_005835_014905_026065_052287_106215_225075,
  1_063170_000001_000001_000003_000003_000001_000041_000005_000169_000015_000049_001311_002715_000579_001693_028001_017935_018585_123531,
  1_063184_000001_000001_000007_000007_000001_000049_000059_000075_000173_000361_001947_002707_001835_012025_024051_024359_121841_215797,
  1_063210_000001_000001_000005_000013_000007_000049_000015_000181_000409_001005_000383_003449_002987_013051_007097_034571_055495_065251,
  1_063215_000001_000001_000003_000011_000005_000009_000067_000041_000009_000079_000401_000379_004107_005231_000519_047877_017273_137479,
  1_063217_000001_000001_000003_000013_000025_000007_000009_000165_000103_000037_001369_000933_001119_001025_019767_025765_055487_249709,
  1_063229_000001_000003_000005_000005_000019_000053_000105_000135_000245_000957_000185_002901_001741_010429_000747_023365_049363_084095,
  1_063237_000001_000001_000001_000015_000029_000017_000107_000193_000017_000447_001261_001935_005749_002303_023287_059883_028655_188055,
  1_063259_000001_000001_000005_000009_000013_000027_000099_000253_000299_000481_000089_003041_001549_015417_030495_002063_053649_219883,
  1_063265_000001_000003_000003_000015_000019_000019_000007_000149_000067_000349_000789_000129_002783_002887_028631_026001_062407_151767,
  1_063271_000001_000003_000003_000013_000007_000029_000065_000025_000093_000627_000301_000721_007249_013295_019995_033715_036441_157625,
  1_063286_000001_000001_000001_000003_000029_000063_000085_000027_000507_000543_001887_003169_004239_004455_022047_015369_048913_192071,
  1_063298_000001_000003_000007_000005_000009_000033_000125_000041_000007_000723_001091_003311_008173_003861_031507_042669_068853_060043,
  1_063343_000001_000003_000001_000013_000013_000007_000121_000041_000181_000913_000371_000163_007061_008779_018345_041915_001785_107113,
  1_063355_000001_000001_000001_000009_000013_000041_000023_000035_000157_000247_001243_001101_005193_004027_029917_044099_046211_162059,
  1_063361_000001_000003_000001_000005_000015_000051_000003_000241_000131_000741_001885_002397_005673_009097_009319_015381_055655_207569,
  1_063362_000001_000001_000003_000015_000025_000015_000069_000055_000435_000727_001007_000375_007871_010437_011011_036711_011269_105159,
  1_063379_000001_000003_000003_000013_000017_000001_000101_000189_000295_000185_001715_002609_006767_011751_011469_003951_080743_114439,
  1_063397_000001_000003_000001_000007_000021_000041_000093_000039_000433_000917_000279_000161_000267_010201_026583_030363_110187_046501,
  1_063415_000001_000001_000007_000007_000013_000015_000089_000167_000365_000925_000107_003537_006815_015251_023149_061821_066569_135353,
  1_063421_000001_000001_000001_000003_000013_000059_000021_000255_000111_000603_000547_000465_003001_016055_026389_064301_112751_219279,
  1_063463_000001_000001_000001_000015_000017_000003_000021_000049_000327_000349_000489_000957_000807_011685_023975_034729_100773_223551,
  1_063491_000001_000003_000005_000015_000019_000059_000063_000071_000233_000767_001789_003609_005911_003405_007519_003611_092015_126669,
  1_063527_000001_000001_000001_000011_000007_000031_000079_000057_000115_000763_001643_003329_007209_001385_015565_064353_060637_059445,
  1_063545_000001_000001_000003_000001_000013_000003_000047_000089_000507_000523_000001_001391_006973_007267_032527_052631_020775_234503,
  1_063553_000001_000003_000001_000009_000023_000023_000095_000057_000295_000857_000213_001211_003503_003043_024843_016149_118719_171585,
  1_063560_000001_000003_000001_000005_000001_000013_000063_000167_000305_000711_000759_002521_005051_009125_022917_024647_100777_261137,
  1_063563_000001_000001_000005_000009_000025_000019_000005_000225_000511_000543_000685_000733_007249_010447_011115_025927_104327_092861,
  1_063566_000001_000003_000001_000007_000015_000007_000015_000083_000379_000461_000943_000317_007735_012655_007549_006371_020901_170331,
  1_063589_000001_000001_000001_000013_000007_000017_000041_000051_000047_000015_000477_001203_000819_001615_013805_040147_003967_192647,
  1_063599_000001_000003_000007_000011_000009_000011_000111_000075_000171_000833_001503_002325_007279_002687_016499_011547_099409_186429,
  1_063601_000001_000001_000005_000003_000013_000021_000075_000017_000447_000647_001309_002297_007911_012093_016237_050831_096123_134479,
  1_063608_000001_000001_000005_000015_000019_000029_000035_000255_000291_000437_000085_002143_003281_003629_029339_028169_046561_236595,
  1_063620_000001_000003_000007_000001_000031_000057_000125_000109_000317_000461_000681_001379_006387_014971_008451_017655_087619_051721,
  1_063654_000001_000003_000007_000001_000023_000033_000045_000149_000043_000465_000997_000601_000693_006273_012867_025885_081353_060437,
  1_063703_000001_000001_000007_000007_000031_000025_000113_000205_000481_000141_001757_000587_002981_007637_003869_004151_069541_068587,
  1_063719_000001_000001_000007_000013_000017_000031_000069_000247_000137_000079_001221_001693_003747_010711_001671_031587_012139_248585,
  1_063758_000001_000001_000001_000003_000001_000061_000039_000139_000037_000079_000125_001145_007505_010129_029209_052045_099159_195553,
  1_063769_000001_000001_000005_000003_000013_000041_000013_000011_000167_000953_001961_003557_000871_001687_028479_010621_027533_243519,
  1_063782_000001_000001_000007_000007_000001_000035_000107_000227_000375_000225_000483_001239_007591_008549_007351_062001_070245_102795,
  1_063803_000001_000001_000001_000009_000029_000035_000015_000003_000337_001017_001065_002107_002457_009455_007069_055081_057887_149679,
  1_063811_000001_000001_000007_000001_000001_000001_000013_000063_000287_000895_000593_001253_004717_010313_010275_022143_059149_038865,
  1_063851_000001_000001_000003_000015_000027_000039_000073_000011_000509_000391_001901_000503_005523_006777_030849_041301_035067_068443,
  1_063854_000001_000003_000003_000015_000017_000057_000039_000229_000273_000917_000577_003627_003285_004495_028581_034011_038537_194999,
  1_063872_000001_000001_000007_000003_000017_000051_000091_000203_000161_000757_000581_001625_000477_008839_016515_043101_121497_023603,
  1_063878_000001_000003_000003_000005_000019_000029_000055_000127_000283_000999_001227_001937_004471_011305_008813_040509_078521_175573,
  1_063895_000001_000003_000003_000003_000005_000029_000033_000249_000025_000213_001315_000393_006967_012751_007485_039561_014801_191921,
  1_063917_000001_000003_000007_000009_000023_000015_000093_000069_000023_000239_001993_003375_000539_014141_010123_033561_127565_181527,
  1_063930_000001_000003_000003_000015_000013_000015_000065_000241_000083_000351_001943_001305_007181_011803_031907_063623_005439_150661,
  1_063935_000001_000003_000007_000011_000013_000017_000017_000037_000409_000577_000973_000797_001761_005333_013803_022991_029743_053051,
  1_063955_000001_000003_000005_000005_000027_000025_000091_000225_000411_000023_000877_002487_008061_012337_011471_008857_010791_112699,
  1_063964_000001_000001_000005_000003_000015_000001_000087_000249_000205_001011_002045_001879_004137_005877_012709_005231_074283_124315,
  1_063967_000001_000001_000007_000007_000031_000037_000117_000071_000139_000391_001085_004033_003087_003063_019991_008787_096899_017279,
  1_063980_000001_000001_000007_000015_000019_000047_000045_000181_000303_000151_000337_002557_006131_003161_013097_052777_077783_259817,
  1_063985_000001_000001_000003_000003_000001_000055_000115_000227_000083_000591_000967_004067_003441_000243_013443_004043_129365_161459,
  1_063992_000001_000001_000003_000015_000005_000023_000071_000031_000271_000585_000931_000909_003375_015063_012111_035811_124047_068225,
  1_064021_000001_000001_000005_000011_000001_000059_000019_000193_000323_000489_000837_003709_001807_011617_030931_033561_002805_100979,
  1_064026_000001_000003_000005_000007_000027_000007_000071_000067_000167_000521_001237_002911_003531_002885_004669_025703_087647_036381,
  1_064044_000001_000003_000003_000013_000013_000021_000097_000225_000477_001023_002029_000877_003849_004675_017665_019257_009697_168577,
  1_064055_000001_000001_000007_000015_000025_000031_000019_000255_000045_000539_001831_002655_007471_012011_012455_003681_123881_234471,
  1_064056_000001_000001_000003_000009_000017_000039_000105_000073_000271_000555_000987_000873_005371_012381_013469_054961_125701_194063,
  1_064061_000001_000001_000005_000005_000007_000027_000015_000195_000121_000175_000991_000955_005007_011423_001539_021381_079891_162149,
  1_064067_000001_000003_000001_000007_000025_000023_000069_000069_000177_000545_000481_003503_003721_001077_008763_006919_064743_172311,
  1_064081_000001_000001_000003_000015_000031_000005_000033_000045_000081_000795_000435_000399_004591_003741_026493_014791_059529_089989,
  1_064100_000001_000001_000007_000013_000021_000029_000095_000075_000213_000059_001635_000479_000441_014667_016389_009139_030955_169895,
  1_064109_000001_000003_000003_000003_000017_000061_000103_000085_000233_000287_000447_002687_004755_009489_001669_010405_058489_170429,
  1_064112_000001_000001_000005_000005_000013_000009_000063_000129_000321_000531_000393_003353_005309_016375_020473_012595_052239_183647,
  1_064118_000001_000001_000003_000007_000007_000031_000101_000253_000119_000325_000351_002321_001899_014073_008985_013609_032043_033225,
  1_064124_000001_000001_000003_000013_000007_000025_000073_000191_000399_000591_000819_002859_006053_000815_030417_005709_018277_121991]

def dirRows18_1_12 : List Nat := [
  1_064145_000001_000003_000003_000001_000007_000047_000007_000081_000451_000463_000699_001857_008169_015649_022693_028673_009717_227583,
  1_064151_000001_000003_000003_000003_000031_000045_000123_000205_000023_000901_001003_001149_007481_006925_023845_018573_097047_248957,
  1_064203_000001_000001_000003_000003_000021_000009_000053_000241_000125_000583_001055_003981_008113_012477_008455_006289_112253_017321,
  1_064208_000001_000001_000007_000003_000019_000005_000051_000111_000443_000283_000117_002127_004273_002335_020373_002885_057439_056839,
  1_064236_000001_000001_000005_000015_000007_000005_000065_000163_000027_000691_001667_000069_002459_007477_021349_052417_042299_075965,
  1_064254_000001_000001_000001_000013_000013_000019_000087_000223_000475_000205_001113_000887_002213_005533_015875_036173_053933_200173,
  1_064261_000001_000003_000003_000013_000023_000017_000093_000037_000391_000127_000873_001445_003007_010863_021245_055025_099275_255329,
  1_064280_000001_000003_000001_000015_000001_000047_000057_000005_000207_000825_000161_000539_006151_012829_014121_051217_025547_234303,
  1_064296_000001_000001_000005_000001_000021_000063_000015_000083_000019_000817_000591_003131_000889_012451_014363_027295_083877_124701,
  1_064313_000001_000001_000007_000007_000011_000021_000087_000085_000013_000555_000163_000009_005973_014749_019585_057287_043421_066301,
  1_064314_000001_000003_000005_000005_000007_000033_000019_000007_000009_000819_000533_002105_004275_010611_030517_035863_084687_245157,
  1_064316_000001_000003_000005_000013_000003_000055_000111_000157_000235_000405_000039_002191_000905_003099_000245_037371_000365_257385,
  1_064348_000001_000003_000003_000013_000029_000039_000125_000235_000213_000879_000497_001659_006689_012165_018621_014657_037079_167867,
  1_064352_000001_000001_000005_000015_000005_000005_000027_000197_000077_000477_001115_003369_002253_005757_020855_004473_112501_076881,
  1_064355_000001_000003_000003_000013_000013_000061_000037_000097_000229_000743_001381_003979_000307_000319_016765_056295_109303_021361,
  1_064361_000001_000001_000007_000011_000019_000007_000063_000145_000129_000899_000093_001851_007901_008767_015553_013913_004897_129483,
  1_064388_000001_000003_000005_000011_000007_000023_000019_000005_000465_000365_000883_003563_004395_002759_004273_000623_075047_249519,
  1_064398_000001_000003_000001_000005_000029_000043_000075_000007_000509_000373_000359_002041_005957_001251_032431_037803_120915_045137,
  1_064403_000001_000003_000001_000005_000021_000009_000043_000001_000337_000743_001359_001629_005117_002499_016129_022831_038795_032137,
  1_064419_000001_000003_000003_000007_000023_000057_000009_000031_000351_000559_001729_001461_003037_012685_008899_014859_108851_170195,
  1_064421_000001_000001_000001_000015_000023_000057_000039_000023_000283_000487_001055_001265_006781_007955_000195_037745_066115_056413,
  1_064428_000001_000001_000003_000007_000027_000035_000057_000017_000137_000017_000905_004033_005775_005305_022975_017547_106297_146287,
  1_064453_000001_000001_000001_000003_000005_000039_000073_000151_000469_000523_000119_000539_002817_007783_022957_059937_021331_172437,
  1_064463_000001_000001_000003_000013_000021_000001_000023_000109_000113_000257_000817_001671_006729_001571_015009_048539_094025_160379,
  1_064475_000001_000001_000001_000001_000031_000023_000083_000107_000225_000715_000949_000069_002163_004777_007715_025901_082935_081455,
  1_064511_000001_000003_000005_000013_000029_000011_000061_000169_000241_000973_000315_003991_001389_003293_031123_059419_007359_170929,
  1_064537_000001_000001_000007_000003_000021_000015_000111_000041_000329_000513_001175_004037_002747_011465_017253_054055_029409_230925,
  1_064576_000001_000003_000005_000015_000031_000017_000105_000045_000061_000339_001387_001021_004499_013671_025521_052081_049153_031587,
  1_064579_000001_000003_000003_000003_000029_000017_000051_000103_000429_000849_001759_001267_006255_004631_032643_044977_040875_239457,
  1_064581_000001_000001_000007_000015_000003_000011_000123_000157_000073_000151_000777_003855_001913_000969_011821_016889_063503_197305,
  1_064606_000001_000003_000001_000005_000013_000049_000061_000209_000105_000523_000851_003667_007525_005537_012851_042867_050535_131403,
  1_064615_000001_000003_000001_000007_000013_000019_000107_000071_000479_000895_000405_000089_001345_005543_012709_006093_097581_020483,
  1_064649_000001_000003_000003_000011_000003_000047_000117_000175_000175_000321_001257_000365_001193_012813_002713_026941_043605_223323,
  1_064655_000001_000001_000007_000001_000019_000035_000045_000143_000395_000255_001599_000575_002637_001287_027673_048329_057975_044173,
  1_064664_000001_000003_000005_000001_000001_000019_000107_000233_000465_000661_000091_004007_006409_003399_008175_054171_111417_124955,
  1_064667_000001_000001_000005_000013_000009_000027_000121_000225_000055_000761_000779_003015_006333_010779_026531_057103_033463_090219,
  1_064712_000001_000003_000001_000009_000017_000003_000085_000147_000111_000133_000869_001833_002401_005811_024415_027095_065529_164121,
  1_064715_000001_000001_000005_000013_000011_000037_000013_000083_000391_000909_002013_001327_006697_001711_029265_010607_020127_057873,
  1_064718_000001_000003_000001_000011_000017_000017_000033_000101_000383_000837_001769_001711_003735_014777_027101_056853_110643_101917,
  1_064741_000001_000003_000005_000013_000025_000007_000037_000099_000473_000211_001469_001827_006307_008835_015853_022027_043095_015817,
  1_064766_000001_000003_000001_000005_000019_000013_000061_000193_000057_000359_001277_000749_005499_011239_020681_048477_007225_259259,
  1_064780_000001_000001_000001_000007_000027_000017_000079_000213_000307_000761_000429_001519_007483_006007_011251_013263_024851_007919,
  1_064788_000001_000001_000003_000005_000009_000037_000101_000149_000405_000413_001213_000157_003811_004485_013099_032697_075677_127815,
  1_064791_000001_000003_000003_000007_000029_000029_000013_000113_000045_000885_001471_003433_002289_004375_000815_016741_020933_009763,
  1_064795_000001_000003_000005_000015_000005_000003_000007_000037_000347_000041_001977_000395_006363_003591_021457_031455_060547_108153,
  1_064798_000001_000003_000005_000007_000019_000009_000113_000001_000241_000439_000731_001591_003347_001295_006635_025267_013239_214669,
  1_064816_000001_000001_000003_000005_000007_000007_000069_000077_000281_000851_001533_000001_007351_003429_029237_054597_011171_066613,
  1_064819_000001_000001_000007_000015_000029_000007_000059_000009_000105_000129_001397_003841_003945_004755_019877_011109_017497_225473,
  1_064822_000001_000003_000007_000007_000015_000061_000003_000207_000097_000229_001251_000101_003157_005729_015579_014849_119119_091891,
  1_064833_000001_000003_000003_000009_000027_000015_000085_000221_000231_000577_001787_003489_002393_007593_013175_025561_108505_097267,
  1_064836_000001_000003_000007_000013_000023_000003_000007_000085_000307_000899_000371_003539_003467_007955_009539_053583_125587_030969,
  1_064876_000001_000001_000005_000007_000007_000031_000115_000245_000375_000803_001121_003775_003565_015283_025981_024681_034469_172003,
  1_064891_000001_000001_000005_000001_000031_000005_000005_000161_000153_000235_001703_002163_001089_016233_006183_025167_102925_036673,
  1_064907_000001_000003_000003_000005_000001_000057_000059_000005_000087_000497_000151_001731_002727_004583_028165_063053_076003_029259,
  1_064943_000001_000001_000005_000007_000005_000021_000079_000111_000347_000879_000827_003947_004421_009589_023971_011681_104555_226535,
  1_064965_000001_000001_000005_000001_000017_000035_000105_000159_000391_000495_001709_003731_000261_002359_001413_037105_008979_189381,
  1_064977_000001_000003_000003_000001_000011_000023_000021_000213_000261_000755_001503_002369_001765_014531_002605_015609_048691_113059,
  1_064999_000001_000003_000005_000001_000001_000055_000087_000197_000089_000391_001157_003523_000385_005871_013681_029097_101903_184553,
  1_065034_000001_000003_000007_000005_000017_000051_000087_000191_000495_000761_001943_001845_002963_013133_022439_020101_096759_215215,
  1_065036_000001_000003_000005_000011_000023_000009_000053_000041_000229_000233_002025_002835_002359_004755_003015_048267_020721_061001,
  1_065089_000001_000001_000007_000009_000027_000035_000045_000201_000137_000291_000151_000733_006199_003127_003073_014491_095051_012469,
  1_065107_000001_000001_000001_000009_000007_000049_000073_000233_000239_000881_001991_000695_005947_009377_012027_041137_080217_122961,
  1_065110_000001_000001_000005_000011_000003_000015_000085_000203_000305_000945_001007_001831_003999_000373_021141_063829_091779_122495,
  1_065120_000001_000001_000001_000011_000023_000051_000127_000215_000441_000467_000229_003071_002731_008813_030155_060289_054531_196187,
  1_065132_000001_000003_000005_000015_000029_000031_000011_000129_000443_000649_000773_003035_007915_013831_031979_005577_042869_153591,
  1_065143_000001_000001_000003_000011_000021_000037_000023_000079_000153_000007_001801_000441_008189_007235_006311_000965_071993_081755,
  1_065150_000001_000003_000005_000005_000023_000013_000093_000039_000247_000367_000811_001381_006809_016219_008755_041923_079873_105781,
  1_065177_000001_000003_000005_000009_000019_000043_000021_000229_000251_000187_001047_002295_005529_002965_001507_016185_121183_030551,
  1_065201_000001_000003_000007_000009_000019_000011_000033_000213_000039_000811_000231_001527_006093_001507_003541_037585_078785_215419,
  1_065214_000001_000003_000007_000007_000011_000013_000109_000119_000175_000311_000719_003127_006351_001909_005441_005411_058751_080875,
  1_065234_000001_000001_000001_000007_000017_000035_000057_000139_000289_000137_001919_002131_006145_003953_024887_064737_004677_023833,
  1_065240_000001_000001_000003_000013_000001_000021_000083_000243_000027_000069_000501_003925_003339_013313_027021_038319_076441_146397,
  1_065243_000001_000003_000007_000009_000015_000017_000097_000117_000505_000673_001333_003891_007775_006323_012967_017387_019501_068347,
  1_065259_000001_000001_000001_000005_000027_000055_000043_000047_000399_000147_001539_002663_005555_011993_008759_033783_008361_078633,
  1_065276_000001_000001_000001_000015_000001_000017_000021_000085_000129_000117_000339_001319_001119_006869_012913_056873_030795_076849,
  1_065287_000001_000001_000005_000005_000011_000001_000011_000175_000355_000737_001367_003089_005993_004377_010325_003817_061735_187689,
  1_065306_000001_000003_000005_000005_000021_000041_000085_000219_000425_000611_001219_001849_000349_000925_026185_031591_023855_035549,
  1_065311_000001_000001_000003_000005_000021_000003_000077_000025_000265_000949_001979_001561_004243_012437_005215_023445_033295_130385,
  1_065321_000001_000001_000003_000001_000013_000007_000003_000081_000143_000735_000031_001781_001537_010789_011923_061589_075761_178837,
  1_065350_000001_000001_000007_000007_000011_000047_000055_000037_000039_000533_001773_003121_000183_007193_019403_045757_020457_158437,
  1_065364_000001_000001_000005_000005_000003_000015_000053_000041_000139_000529_000601_002967_004683_003869_013449_030155_085833_190053,
  1_065451_000001_000001_000005_000001_000011_000039_000085_000131_000349_000175_000267_000779_000923_005905_032727_022055_063087_247607,
  1_065488_000001_000003_000005_000007_000007_000059_000011_000049_000465_000617_000557_000251_001303_010369_029207_013457_113591_043717,
  1_065510_000001_000003_000005_000003_000027_000039_000021_000157_000039_000891_001833_002887_007395_007965_021771_042675_071705_177323,
  1_065528_000001_000003_000007_000007_000021_000051_000053_000083_000433_000889_001033_001701_006285_014335_001683_003637_110241_110355,
  1_065533_000001_000001_000007_000007_000011_000023_000035_000063_000071_000867_000079_002551_001837_000773_021093_060433_067305_070731,
  1_065553_000001_000003_000005_000011_000009_000025_000067_000023_000137_000075_000707_002229_006237_009871_029063_030433_112897_068037,
  1_065563_000001_000003_000007_000013_000001_000045_000119_000149_000487_000667_001177_002927_001875_011963_020771_001177_002331_244039,
  1_065579_000001_000003_000003_000007_000019_000061_000089_000163_000091_000409_001109_001947_001017_012385_013487_045645_064175_184221,
  1_065621_000001_000001_000001_000015_000013_000047_000021_000203_000341_000845_000443_001891_002591_002721_007515_052161_070359_173139,
  1_065625_000001_000003_000003_000011_000005_000003_000119_000179_000509_000033_001909_002531_006713_012447_030157_061019_045857_165557,
  1_065635_000001_000003_000007_000005_000003_000047_000079_000055_000321_000071_001917_004053_006603_003079_028133_015611_099161_118279,
  1_065644_000001_000001_000001_000007_000019_000013_000003_000031_000213_000705_000435_002381_000991_004719_024473_008907_122013_228081,
  1_065690_000001_000001_000007_000011_000027_000015_000005_000123_000169_000197_000361_003803_002001_014547_022967_027575_118325_130651,
  1_065696_000001_000003_000003_000005_000029_000043_000077_000015_000463_000753_000695_003489_002023_009913_013029_026621_129393_209439,
  1_065705_000001_000001_000005_000015_000001_000039_000055_000129_000247_000729_001537_002529_003981_013153_001505_012743_104173_218423,
  1_065716_000001_000003_000007_000003_000021_000003_000049_000173_000445_000821_000003_002671_001865_001377_007589_065485_096485_080193,
  1_065725_000001_000003_000003_000011_000007_000021_000099_000143_000333_000869_001469_001579_001749_002203_018773_047377_103211_238357,
  1_065733_000001_000003_000005_000011_000011_000019_000025_000253_000229_000755_000101_000269_006703_005603_023201_057163_028431_159653,
  1_065740_000001_000003_000005_000003_000003_000015_000045_000225_000325_000997_001061_000883_003885_007633_000461_044411_052129_084535]

def dirRows18_1_13 : List Nat := [
  1_065758_000001_000001_000007_000001_000027_000029_000051_000023_000473_000443_000117_003021_000055_007413_007911_003063_047533_234941,
  1_065786_000001_000003_000003_000015_000019_000043_000037_000095_000249_000805_000603_000865_002115_006999_009739_059029_012181_211159,
  1_065806_000001_000003_000007_000003_000003_000061_000105_000113_000011_000169_001007_000689_002553_014561_017473_038249_041225_080021,
  1_065834_000001_000003_000007_000011_000005_000047_000069_000049_000457_000931_000435_001423_000411_015163_003171_029143_101153_240869,
  1_065844_000001_000003_000007_000001_000017_000001_000013_000045_000155_000551_001783_003583_002767_002761_018019_061635_104527_123817,
  1_065866_000001_000001_000005_000011_000009_000043_000101_000205_000233_000689_001247_002903_003117_012261_011827_050403_103727_035533,
  1_065895_000001_000001_000005_000013_000023_000037_000121_000195_000133_000265_001517_000823_005933_013917_006363_008533_058443_178549,
  1_065902_000001_000001_000007_000009_000029_000001_000003_000195_000221_000877_000071_000473_001173_015285_006057_060005_092401_065357,
  1_065953_000001_000003_000007_000001_000005_000025_000015_000207_000455_000447_001125_003731_001289_000867_022111_038893_070779_088277,
  1_065954_000001_000001_000001_000013_000031_000019_000015_000179_000183_000351_001197_001929_003569_012251_017641_004097_024141_186857,
  1_065983_000001_000001_000001_000009_000019_000009_000125_000023_000431_000225_000943_000479_002615_000443_030977_010889_017107_116819,
  1_065985_000001_000003_000001_000009_000009_000013_000085_000123_000085_000857_000125_003149_001105_003687_002313_038749_052131_259511,
  1_066003_000001_000003_000005_000007_000027_000033_000057_000105_000511_000871_001089_002311_003291_002245_003365_030211_062549_056207,
  1_066010_000001_000001_000007_000011_000001_000019_000075_000037_000139_000173_000391_000317_002575_011887_004289_032275_043487_000487,
  1_066025_000001_000001_000007_000001_000011_000003_000009_000217_000343_000035_000059_000093_001343_005043_014869_063717_040983_235373,
  1_066050_000001_000001_000003_000005_000015_000013_000093_000247_000417_000179_000307_003299_004383_005491_021271_037155_032289_075737,
  1_066074_000001_000003_000003_000009_000003_000039_000063_000243_000305_000729_000009_003317_003301_013165_020437_036505_032977_002761,
  1_066076_000001_000003_000007_000005_000003_000037_000061_000109_000351_000641_001699_002517_002637_004995_027365_056971_053609_014373,
  1_066097_000001_000003_000001_000015_000031_000053_000127_000123_000219_001003_001425_001201_005303_010369_021481_026987_042541_037855,
  1_066132_000001_000003_000003_000013_000009_000029_000035_000111_000395_000791_001619_002647_000713_015955_019145_033883_065215_166267,
  1_066158_000001_000001_000007_000011_000017_000005_000045_000249_000421_000273_000411_002885_007027_011933_024847_036969_124701_214931,
  1_066175_000001_000001_000003_000001_000027_000041_000125_000083_000327_000643_000223_000151_006709_015949_000125_013275_090405_015759,
  1_066185_000001_000001_000005_000015_000019_000045_000055_000109_000497_001011_001363_001937_003697_007475_010533_065325_029681_076275,
  1_066199_000001_000001_000001_000003_000023_000017_000059_000209_000229_000151_001199_000279_000191_008993_025939_013885_113477_166961,
  1_066206_000001_000003_000005_000001_000019_000061_000027_000129_000103_000721_001451_002803_005879_003523_015443_004047_095927_050339,
  1_066222_000001_000001_000001_000011_000027_000009_000053_000047_000331_000185_001337_003429_000807_003341_014871_011035_050651_243843,
  1_066227_000001_000003_000005_000011_000007_000057_000125_000015_000271_000811_001873_003093_007841_005761_019955_000571_123319_149465,
  1_066241_000001_000003_000001_000003_000031_000061_000071_000047_000477_000273_000167_001069_003513_001463_002667_022097_060367_246045,
  1_066272_000001_000001_000001_000011_000001_000055_000035_000233_000037_000659_001517_000411_002981_010339_021857_033701_044393_006861,
  1_066324_000001_000001_000005_000007_000011_000043_000109_000205_000103_000315_001925_002109_006307_007915_019793_061167_027963_251913,
  1_066424_000001_000001_000005_000011_000005_000063_000107_000219_000053_000251_001053_002035_000077_015885_022011_003945_000091_204899,
  1_066460_000001_000003_000007_000013_000021_000045_000051_000053_000099_000831_001421_003171_004241_014105_026161_045071_002813_054339,
  1_066464_000001_000003_000005_000001_000003_000061_000043_000141_000355_000699_000011_002203_008055_014815_024597_065201_032689_070167,
  1_066481_000001_000003_000001_000005_000011_000027_000109_000239_000199_000023_000375_001477_003197_004401_029901_046623_079593_133143,
  1_066482_000001_000001_000001_000003_000023_000009_000063_000103_000041_000177_001365_001971_005937_013055_027713_013535_047371_057841,
  1_066523_000001_000001_000005_000005_000019_000015_000005_000021_000307_000065_000215_003801_004149_006565_010249_063541_030867_012129,
  1_066526_000001_000003_000003_000009_000011_000001_000107_000099_000235_000331_001479_001365_002557_009545_025767_012461_006471_184643,
  1_066532_000001_000003_000003_000005_000017_000013_000103_000223_000095_000955_001479_001825_000705_005311_028531_022787_118899_181829,
  1_066539_000001_000003_000007_000001_000005_000059_000065_000011_000251_000419_000659_002559_005445_004221_005871_051845_033925_167037,
  1_066541_000001_000003_000005_000013_000015_000045_000035_000181_000325_000293_001897_003321_006081_009919_027641_009407_035263_231009,
  1_066573_000001_000003_000003_000003_000003_000035_000085_000033_000293_000777_001945_003771_006967_012353_002737_012501_127359_163591,
  1_066582_000001_000003_000007_000009_000013_000007_000119_000107_000309_000811_001113_002465_004867_004295_000565_059159_094587_119761,
  1_066591_000001_000003_000003_000001_000001_000031_000061_000049_000461_000635_000233_000175_006237_010463_017847_054925_115675_260575,
  1_066615_000001_000003_000005_000015_000025_000017_000061_000155_000235_000483_001771_002903_003163_002525_017153_054701_049521_011911,
  1_066622_000001_000003_000003_000005_000001_000035_000051_000023_000187_000107_000177_001381_000165_006149_010841_003619_107811_188811,
  1_066629_000001_000001_000005_000009_000007_000035_000005_000233_000043_000913_000939_002195_001369_005355_007941_026075_066813_227623,
  1_066641_000001_000003_000007_000011_000005_000043_000097_000211_000427_000875_001179_003631_007989_002419_017209_015789_128209_224117,
  1_066712_000001_000001_000001_000007_000017_000007_000109_000255_000111_000883_000371_003481_006031_014665_005905_028735_113003_000327,
  1_066724_000001_000003_000005_000003_000005_000061_000007_000155_000087_000861_000039_003163_000179_015493_016403_018755_116157_233185,
  1_066731_000001_000003_000005_000005_000023_000045_000067_000205_000395_000417_001235_000669_005097_006823_031483_061395_036073_024183,
  1_066745_000001_000001_000003_000001_000011_000035_000123_000171_000125_000759_000197_000907_002273_003623_031861_060071_091857_158011,
  1_066759_000001_000003_000007_000011_000019_000019_000025_000025_000167_000429_001565_003179_005453_015731_030727_032111_063685_113309,
  1_066808_000001_000003_000007_000009_000015_000033_000067_000225_000495_000019_001881_001357_004311_009547_018717_020749_008819_209979,
  1_066814_000001_000003_000005_000003_000013_000047_000107_000153_000461_000815_001521_002361_007721_010631_002799_062321_059755_170803,
  1_066821_000001_000003_000007_000005_000025_000061_000005_000235_000071_000349_001555_003419_001159_002027_017391_029849_047145_122057,
  1_066831_000001_000001_000005_000011_000019_000019_000101_000045_000333_000553_001431_004077_002629_015997_019793_065521_124287_174675,
  1_066834_000001_000003_000007_000011_000025_000039_000103_000219_000375_000027_000227_001061_000445_014803_018883_049191_033303_114467,
  1_066879_000001_000001_000005_000007_000003_000013_000117_000029_000387_000891_000371_002199_007023_013671_026291_061563_002733_016093,
  1_066884_000001_000003_000005_000011_000029_000005_000017_000249_000149_000777_001817_000319_000019_012321_015241_029069_058381_157467,
  1_066899_000001_000003_000007_000009_000029_000017_000081_000141_000201_000383_000429_003675_000069_008155_022821_060707_127015_248279,
  1_066901_000001_000003_000007_000009_000025_000005_000011_000027_000423_000987_000099_003599_004849_004513_032119_034301_006327_249457,
  1_066924_000001_000003_000003_000007_000013_000025_000071_000227_000307_000985_000665_003097_006713_003823_006357_058199_084057_028055,
  1_066929_000001_000003_000005_000007_000019_000021_000093_000045_000159_000527_000493_000059_001111_001415_001949_028525_050343_011039,
  1_066942_000001_000003_000005_000013_000017_000035_000079_000229_000449_000533_000235_003445_008153_015473_012975_053909_024589_237049,
  1_066985_000001_000001_000007_000005_000003_000053_000093_000033_000339_000423_000497_002691_006125_003931_025357_027509_092509_227209,
  1_066986_000001_000001_000007_000003_000013_000049_000111_000179_000449_000279_000827_001481_002477_006867_018079_006261_030885_205675,
  1_066994_000001_000003_000007_000007_000011_000009_000013_000105_000367_000639_001307_001617_004759_008387_008909_013715_056599_113259,
  1_067066_000001_000001_000003_000003_000015_000017_000103_000125_000205_000067_000999_003965_000907_013235_015275_058457_066889_227279,
  1_067075_000001_000003_000003_000003_000011_000035_000099_000081_000421_000075_001757_002413_005655_001227_004019_014503_020719_224807,
  1_067099_000001_000001_000007_000011_000017_000017_000109_000203_000331_000813_000987_002925_001601_013617_000029_008235_095129_117987,
  1_067130_000001_000003_000007_000005_000005_000033_000105_000191_000183_000899_001949_002923_002473_003435_008097_035615_010109_062563,
  1_067173_000001_000001_000007_000013_000005_000025_000021_000159_000487_000415_001507_002161_000649_014425_002605_008357_092441_087323,
  1_067183_000001_000003_000007_000015_000003_000023_000087_000209_000407_000765_000975_003859_000675_006351_018703_044919_057155_134961,
  1_067186_000001_000003_000005_000015_000007_000059_000077_000037_000235_000565_001707_003531_006733_002223_012621_059523_083547_172355,
  1_067197_000001_000003_000007_000005_000023_000015_000057_000217_000151_000333_001033_002549_000303_001455_005329_020187_055415_166093,
  1_067201_000001_000003_000001_000013_000021_000027_000001_000085_000335_000201_000135_002603_000291_010573_028411_001059_129871_098303,
  1_067208_000001_000001_000003_000005_000023_000061_000123_000169_000503_000629_000711_002795_002291_013273_032703_063377_072809_214927,
  1_067221_000001_000003_000005_000013_000031_000011_000115_000133_000443_000709_000263_003739_002777_011545_019137_061285_064065_214477,
  1_067238_000001_000003_000001_000011_000029_000025_000003_000005_000385_000613_001277_001445_001643_015137_028041_047713_122051_062915,
  1_067252_000001_000003_000005_000011_000003_000011_000001_000137_000457_000577_000783_001745_000005_005817_026569_050751_014075_246219,
  1_067256_000001_000001_000001_000009_000007_000009_000105_000027_000167_000939_000799_002773_006427_015579_001975_010695_111429_227105,
  1_067270_000001_000003_000001_000011_000023_000023_000073_000103_000103_000061_001743_003061_008127_015893_021223_043549_103659_089129,
  1_067288_000001_000001_000007_000013_000005_000043_000059_000235_000139_000961_000839_003843_001317_004903_021043_015479_115065_112531,
  1_067318_000001_000003_000001_000003_000019_000015_000057_000145_000193_000321_001919_000385_000125_015517_014243_062845_038995_120045,
  1_067329_000001_000003_000003_000007_000017_000061_000077_000075_000267_000203_001911_002599_001797_000761_028101_058603_107755_158689,
  1_067349_000001_000001_000005_000011_000015_000021_000071_000227_000377_000361_002013_000129_006271_001421_006009_052261_113389_074915,
  1_067369_000001_000001_000005_000007_000003_000039_000027_000049_000097_000885_000651_001633_003445_003415_020167_026667_052997_221391,
  1_067392_000001_000001_000007_000009_000007_000059_000095_000127_000479_000871_000845_002951_000673_006385_010057_002605_078529_230771,
  1_067435_000001_000003_000005_000007_000031_000015_000053_000125_000223_000711_000875_000429_007237_004005_002153_026865_063205_144125,
  1_067473_000001_000001_000007_000009_000001_000057_000019_000189_000067_000423_001937_000037_004925_015503_025969_020419_059921_058119,
  1_067496_000001_000001_000007_000007_000031_000051_000099_000189_000021_001011_001551_003529_007617_015805_011365_043123_084785_203703,
  1_067507_000001_000001_000003_000015_000003_000063_000009_000067_000399_000151_000253_001839_001365_016295_013145_029211_048681_177643,
  1_067514_000001_000001_000001_000005_000013_000037_000001_000021_000435_000483_000939_000535_001505_010879_007027_005599_063261_158573,
  1_067536_000001_000001_000007_000015_000013_000039_000113_000209_000213_001017_001197_000285_004221_006831_013383_002265_034313_160879,
  1_067555_000001_000003_000007_000015_000025_000023_000095_000217_000141_000681_000451_001275_004957_010197_021375_050905_011087_096135,
  1_067598_000001_000003_000001_000011_000017_000035_000087_000015_000057_000777_001429_000615_000681_008437_023981_051781_112169_198471,
  1_067615_000001_000003_000001_000005_000021_000037_000113_000105_000123_000327_000549_001641_007697_002127_005709_008351_056787_260157,
  1_067625_000001_000003_000007_000015_000019_000017_000051_000015_000367_000089_001635_000353_004855_001551_007197_027403_011259_176029,
  1_067645_000001_000003_000001_000001_000027_000009_000003_000035_000213_000031_000885_000797_007077_015641_022509_035193_112411_157335,
  1_067651_000001_000001_000005_000001_000005_000009_000101_000149_000169_000581_001927_000197_005935_006361_003915_015541_069575_102451]

def dirRows18_1_14 : List Nat := [
  1_067663_000001_000003_000003_000013_000023_000063_000045_000205_000271_000017_000707_000937_002547_012019_008559_026163_058117_138625,
  1_067672_000001_000001_000003_000001_000019_000063_000125_000175_000253_000629_001121_003701_007755_000061_013037_039417_006179_261923,
  1_067682_000001_000001_000005_000001_000025_000063_000027_000245_000371_000657_000157_003821_003279_008977_009065_035611_027325_205737,
  1_067699_000001_000003_000007_000015_000007_000057_000019_000191_000001_000927_001379_002579_004335_007163_004877_051435_017309_100173,
  1_067718_000001_000001_000001_000005_000021_000059_000107_000195_000317_000691_000541_000069_007235_002175_025191_023913_126369_009263,
  1_067780_000001_000003_000005_000015_000017_000007_000067_000027_000263_000855_001065_000973_006705_010729_008719_032741_059207_249107,
  1_067795_000001_000003_000001_000001_000021_000023_000115_000119_000351_000207_001691_001105_007479_003877_024439_029017_034171_133797,
  1_067804_000001_000003_000003_000003_000011_000023_000039_000165_000099_001023_000309_003933_004235_003891_027237_030887_034363_175017,
  1_067818_000001_000003_000001_000005_000017_000033_000079_000105_000253_000515_000823_001783_001523_002095_010355_008929_051001_112815,
  1_067832_000001_000003_000007_000015_000011_000027_000123_000161_000279_000541_001343_001009_006015_008565_027031_000233_002153_179243,
  1_067941_000001_000001_000007_000007_000001_000053_000001_000033_000075_000057_000723_003855_003301_014941_006637_025181_103441_208339,
  1_067984_000001_000003_000007_000013_000003_000023_000011_000075_000055_000019_001181_003451_004901_002621_018323_042395_095701_237753,
  1_068044_000001_000001_000001_000005_000001_000001_000123_000203_000367_000071_001897_000295_006719_002647_007135_034511_079853_058351,
  1_068059_000001_000003_000003_000007_000007_000063_000087_000091_000223_000265_000927_003843_001703_011633_008077_026425_046573_181201,
  1_068062_000001_000003_000003_000003_000001_000051_000003_000099_000037_000251_001739_002813_003955_008745_004425_042419_124177_173997,
  1_068065_000001_000003_000005_000015_000009_000019_000011_000207_000123_000287_001703_002155_002729_004541_004925_004735_077159_097911,
  1_068071_000001_000003_000003_000015_000023_000031_000035_000033_000507_000315_001071_003001_007569_011749_003183_006989_068637_177803,
  1_068072_000001_000003_000005_000001_000031_000001_000113_000039_000295_000263_001113_000619_005523_015385_024115_024233_091943_129299,
  1_068085_000001_000001_000005_000011_000009_000057_000089_000049_000067_000601_001277_002275_006349_004141_028397_047061_028143_126291,
  1_068090_000001_000003_000007_000015_000011_000063_000123_000187_000305_001009_001509_002569_002235_008233_027351_053437_034353_105799,
  1_068101_000001_000001_000003_000001_000013_000009_000011_000169_000427_000171_001031_000633_004275_001173_011233_057997_107753_257337,
  1_068102_000001_000003_000005_000005_000003_000039_000049_000233_000309_000999_001275_000085_001663_016275_009145_018439_059055_249657,
  1_068106_000001_000001_000003_000007_000011_000055_000073_000075_000115_000397_000945_003657_006847_007341_021305_030119_065675_169281,
  1_068164_000001_000001_000007_000007_000003_000005_000031_000179_000183_000479_000329_000217_001077_006893_023425_021903_034293_184819,
  1_068191_000001_000001_000003_000003_000007_000063_000097_000255_000289_000917_001881_003829_002433_003473_011045_037739_073349_171899,
  1_068192_000001_000003_000005_000005_000027_000023_000061_000151_000353_000667_001889_002323_003261_015999_024225_035265_097301_075743,
  1_068195_000001_000003_000007_000001_000019_000041_000081_000061_000461_000275_000131_002665_005615_001719_021047_042025_097725_196587,
  1_068209_000001_000001_000007_000011_000003_000005_000047_000107_000397_000237_001795_003049_005317_014147_015299_050469_083855_075685,
  1_068245_000001_000001_000007_000007_000019_000031_000039_000153_000225_000591_001547_003755_003219_015823_004015_030977_063999_198023,
  1_068246_000001_000003_000001_000001_000017_000057_000091_000003_000425_000465_000735_000719_002955_003003_006669_014335_032137_082265,
  1_068274_000001_000003_000001_000009_000013_000025_000093_000187_000119_000735_000447_003387_005111_006525_028241_037643_099023_058551,
  1_068293_000001_000001_000007_000001_000023_000015_000105_000089_000109_000743_002007_003131_004839_003285_014681_047097_069531_104647,
  1_068294_000001_000001_000005_000007_000027_000033_000085_000109_000165_000569_000511_003223_002201_002869_030457_042585_125187_083115,
  1_068322_000001_000001_000007_000013_000001_000039_000055_000069_000279_000757_000425_001317_002403_010711_003341_033491_005607_214161,
  1_068353_000001_000003_000003_000009_000023_000057_000109_000009_000473_000323_001371_000657_005039_001947_012787_029099_081887_044039,
  1_068359_000001_000003_000001_000009_000021_000049_000039_000071_000493_000611_001465_003965_007509_005315_004095_021865_123533_148467,
  1_068377_000001_000001_000007_000005_000015_000045_000067_000109_000143_000423_000205_000849_001291_000245_026275_062873_069177_173705,
  1_068401_000001_000003_000007_000013_000003_000013_000103_000045_000171_000919_000903_002171_005025_014855_000895_036937_037643_030311,
  1_068422_000001_000003_000001_000005_000031_000035_000067_000111_000201_000183_000375_000905_005705_008839_031551_022525_053013_034189,
  1_068434_000001_000001_000003_000007_000025_000011_000085_000231_000285_000957_001731_001267_008179_014195_018405_008489_032503_086257,
  1_068443_000001_000003_000007_000005_000029_000007_000073_000015_000501_000909_001325_000793_004479_012137_030871_036243_109781_007235,
  1_068445_000001_000001_000003_000015_000013_000013_000075_000221_000497_000921_001939_002791_005277_006257_011129_000109_027549_044901,
  1_068476_000001_000001_000007_000003_000021_000009_000035_000113_000101_000015_000545_002429_005869_011379_014427_028605_108313_220523,
  1_068492_000001_000003_000005_000005_000021_000031_000079_000101_000011_000687_000609_003741_001259_001529_010185_049863_086529_005147,
  1_068504_000001_000003_000001_000005_000005_000049_000105_000213_000435_000201_000511_000525_005219_009503_032023_025407_002493_051165,
  1_068525_000001_000001_000005_000009_000009_000061_000067_000107_000351_000519_001373_001261_001069_004325_009579_037117_071759_017601,
  1_068540_000001_000001_000007_000007_000027_000063_000063_000229_000239_000291_001813_003831_008091_002553_018445_060707_088855_224325,
  1_068543_000001_000001_000005_000007_000015_000023_000109_000007_000409_000447_000185_003535_004643_013431_011107_048771_095843_155889,
  1_068555_000001_000003_000003_000011_000009_000047_000013_000031_000083_000837_001661_002283_000299_013161_025305_006079_107237_058477,
  1_068563_000001_000003_000007_000015_000003_000031_000021_000245_000105_000141_000703_000071_001887_009345_015719_037737_058431_195997,
  1_068576_000001_000001_000001_000013_000025_000021_000023_000067_000349_000581_001585_000809_003955_004621_025989_025633_107229_193271,
  1_068581_000001_000001_000005_000003_000015_000057_000111_000147_000243_000575_000851_003461_005171_004203_021855_059579_090509_016897,
  1_068617_000001_000001_000005_000013_000005_000045_000083_000059_000253_000261_001277_003179_006397_004277_006629_010979_055759_003033,
  1_068631_000001_000001_000001_000009_000025_000001_000127_000159_000273_000357_001343_003209_000649_006631_001365_040813_098955_181679,
  1_068656_000001_000003_000001_000011_000001_000009_000067_000005_000041_000661_000863_003769_002737_007261_026829_043093_113025_127975,
  1_068666_000001_000001_000003_000003_000007_000005_000077_000207_000125_000625_000437_001059_002635_001099_025567_063759_097575_231313,
  1_068714_000001_000003_000007_000005_000021_000041_000011_000177_000489_000405_001831_001373_006267_011275_023613_055565_120353_098771,
  1_068743_000001_000001_000003_000011_000015_000055_000103_000185_000493_000755_001235_003143_004355_004887_011245_060103_004023_184729,
  1_068761_000001_000003_000001_000001_000023_000005_000103_000117_000269_000101_002013_001781_006445_008753_015041_013993_028753_047133,
  1_068764_000001_000003_000007_000005_000009_000023_000001_000203_000019_000535_001445_001713_005503_011555_006195_035797_055663_010187,
  1_068767_000001_000003_000005_000001_000015_000003_000125_000225_000447_000269_001663_001823_004309_012243_016689_003889_041111_123355,
  1_068768_000001_000001_000001_000005_000021_000033_000083_000147_000243_000101_001085_000121_004939_006081_022621_052995_103047_082531,
  1_068786_000001_000003_000005_000003_000021_000003_000005_000081_000431_000191_001973_003675_006691_008687_031619_051669_095541_110447,
  1_068788_000001_000001_000001_000015_000001_000011_000083_000145_000075_000133_000967_002837_005111_006099_009119_053661_128647_040557,
  1_068848_000001_000001_000001_000007_000003_000057_000101_000231_000255_000117_001903_002133_003867_011299_000647_058853_022153_135959,
  1_068851_000001_000003_000005_000005_000009_000019_000089_000229_000313_000421_000201_000953_002487_006283_001305_033421_020933_164841,
  1_068914_000001_000001_000003_000003_000001_000045_000093_000165_000343_000577_001329_003019_002727_014397_007123_063347_045525_035133,
  1_068946_000001_000003_000005_000005_000019_000001_000033_000055_000049_001003_001567_002539_007461_014641_007655_037499_065525_084961,
  1_068952_000001_000003_000005_000005_000029_000003_000077_000039_000251_000791_000215_003779_001589_003577_022299_024133_105449_257157,
  1_068973_000001_000003_000001_000005_000007_000023_000109_000209_000035_000571_001047_003453_003657_011713_019379_057101_029943_060909,
  1_069001_000001_000001_000007_000011_000017_000063_000015_000175_000333_000831_001447_001991_003339_002519_030127_051481_071935_144995,
  1_069016_000001_000003_000001_000011_000013_000051_000017_000067_000043_000209_000789_001285_005655_005841_010203_032053_015721_211725,
  1_069035_000001_000001_000005_000007_000031_000049_000069_000255_000325_000819_001769_001961_007403_001241_002241_040425_014839_178969,
  1_069037_000001_000001_000003_000009_000001_000005_000009_000035_000167_000865_000337_001079_006195_010139_019215_057607_122437_197147,
  1_069049_000001_000001_000001_000015_000023_000007_000047_000155_000345_000547_000333_003747_000961_001397_017067_033385_048253_138611,
  1_069052_000001_000001_000007_000009_000029_000027_000081_000183_000153_000171_001125_001929_001047_012463_001543_042981_126163_203259,
  1_069058_000001_000001_000005_000003_000001_000041_000123_000213_000007_000179_000001_003527_001437_003545_002025_005325_027097_187823,
  1_069063_000001_000001_000007_000001_000019_000005_000111_000251_000431_000091_001437_001155_000335_009587_018287_023937_123331_003939,
  1_069075_000001_000001_000001_000009_000013_000059_000075_000219_000225_000313_000525_002003_007829_007063_022123_004263_095491_009375,
  1_069112_000001_000003_000001_000001_000027_000029_000071_000189_000169_000301_000165_002967_005147_007127_002191_034259_066605_149603,
  1_069117_000001_000003_000005_000013_000029_000057_000105_000031_000495_000311_001161_002109_001471_001275_012761_058379_046365_229935,
  1_069124_000001_000001_000007_000003_000007_000049_000125_000189_000309_000399_001361_003969_002177_008171_026623_041855_002809_005825,
  1_069127_000001_000003_000005_000007_000017_000021_000077_000101_000037_000661_001743_002243_000823_012431_026931_007163_108093_191305,
  1_069134_000001_000001_000007_000005_000027_000055_000109_000119_000013_000727_000421_003469_001137_006125_005107_052733_102891_147425,
  1_069139_000001_000001_000003_000005_000017_000045_000017_000211_000137_000021_000689_001487_000233_009845_006499_052617_073081_198137,
  1_069161_000001_000003_000007_000001_000025_000027_000067_000007_000161_000633_000729_000807_007371_007301_029499_045939_110565_219491,
  1_069196_000001_000003_000003_000013_000017_000007_000055_000211_000103_000981_001809_001913_005705_014011_007405_013893_092053_017997,
  1_069224_000001_000001_000001_000001_000015_000009_000075_000037_000005_000443_000157_002749_005587_016087_014953_026793_021229_226879,
  1_069238_000001_000003_000003_000003_000009_000013_000113_000007_000255_000647_000235_001713_000525_008579_020873_049565_043869_145823,
  1_069301_000001_000001_000005_000015_000009_000001_000119_000189_000073_000321_001045_000467_001565_014381_022683_007939_044337_231901,
  1_069316_000001_000001_000003_000013_000021_000061_000035_000105_000425_000395_000381_001205_003631_008099_023723_029435_094683_180367,
  1_069325_000001_000003_000003_000013_000019_000015_000059_000111_000355_000165_000857_003131_005037_002527_017533_053563_000621_089837,
  1_069334_000001_000003_000003_000011_000011_000041_000003_000075_000179_000325_000897_003141_000075_001735_000493_001123_126763_068645,
  1_069347_000001_000003_000005_000007_000019_000061_000009_000099_000101_000583_001967_000621_001869_010693_002025_062797_085727_212309,
  1_069359_000001_000003_000001_000013_000023_000047_000015_000029_000199_000889_000423_003995_001655_010753_025301_055551_094829_205833,
  1_069381_000001_000001_000001_000001_000021_000001_000091_000237_000195_000721_000881_001155_004109_010367_001873_006851_013295_182363,
  1_069388_000001_000001_000005_000015_000019_000035_000037_000197_000137_000255_000093_000681_000949_015183_024785_039357_065547_149013,
  1_069393_000001_000003_000003_000003_000027_000027_000095_000239_000171_000513_000655_001629_004577_003005_001681_002581_059995_083981,
  1_069409_000001_000003_000003_000007_000029_000033_000111_000085_000437_000297_001563_002411_006171_002043_017625_059093_000995_211599,
  1_069422_000001_000003_000001_000013_000019_000035_000033_000009_000057_000153_000819_002017_005879_013559_023135_025981_041091_050975]

def dirRows18_1_15 : List Nat := [
  1_069453_000001_000003_000005_000011_000023_000053_000011_000123_000119_000057_001775_003457_007939_004999_010771_023571_030099_017361,
  1_069459_000001_000001_000007_000011_000027_000013_000007_000215_000007_001009_001967_001845_006679_013781_021797_018755_047131_245907,
  1_069481_000001_000001_000001_000003_000019_000047_000035_000013_000287_000349_000439_003125_002387_012483_003833_029399_027037_030235,
  1_069487_000001_000003_000001_000015_000017_000041_000015_000021_000499_000087_001899_002835_001919_000925_004525_012935_025021_106657,
  1_069490_000001_000001_000001_000013_000017_000059_000073_000075_000443_000199_001871_003447_004517_008395_016661_030655_017871_231337,
  1_069495_000001_000001_000007_000001_000001_000053_000017_000049_000259_000077_000917_000631_006061_012291_017715_049761_070699_068313,
  1_069501_000001_000001_000003_000009_000013_000027_000067_000149_000229_000347_001397_003457_006047_013117_000011_018121_070323_036441,
  1_069511_000001_000003_000005_000007_000027_000013_000069_000177_000451_000087_000647_003797_005433_003137_020213_009809_126877_055243,
  1_069512_000001_000003_000007_000013_000021_000057_000073_000157_000173_000631_001527_000337_005605_008041_002181_019567_019829_063353,
  1_069532_000001_000003_000003_000007_000011_000005_000111_000161_000247_000553_000435_003883_005639_010889_008953_058297_015197_099711,
  1_069542_000001_000001_000007_000013_000011_000029_000071_000251_000387_001003_001275_000763_000067_010597_005995_053677_004683_002157,
  1_069560_000001_000001_000003_000009_000023_000027_000093_000209_000325_000517_000297_003215_004359_000395_010377_036967_069803_190037,
  1_069565_000001_000001_000001_000003_000027_000061_000021_000229_000469_000003_000387_000523_004753_002267_009879_032113_060837_076205,
  1_069571_000001_000003_000001_000007_000031_000031_000067_000015_000161_000699_000713_002973_002007_000693_021823_057549_028989_157879,
  1_069611_000001_000003_000001_000001_000003_000063_000111_000061_000311_000685_001029_000345_006763_016217_014505_009777_003513_160985,
  1_069633_000001_000001_000001_000011_000005_000025_000013_000079_000337_000003_001997_003489_007621_012115_009221_007953_019067_052697,
  1_069640_000001_000001_000001_000003_000019_000003_000085_000127_000475_000391_000293_002249_001211_001185_017133_006753_065517_098157,
  1_069667_000001_000001_000005_000009_000011_000031_000057_000107_000315_000983_001117_002189_004813_009925_026635_030589_032989_044195,
  1_069669_000001_000001_000007_000007_000021_000001_000001_000221_000421_000199_000539_003981_004627_015655_012621_020427_011619_187185,
  1_069679_000001_000001_000007_000005_000013_000019_000049_000031_000055_000035_001847_003173_000475_015245_030907_050075_130837_087283,
  1_069688_000001_000001_000007_000015_000013_000047_000013_000017_000169_000185_001411_001689_002339_002159_010591_052283_026785_255707,
  1_069699_000001_000003_000005_000007_000003_000029_000007_000083_000329_000747_001755_001067_002565_002437_012309_015043_097589_069409,
  1_069756_000001_000003_000003_000009_000019_000049_000009_000231_000427_000131_000485_001637_001129_014723_019071_047997_074613_171539,
  1_069759_000001_000001_000001_000001_000005_000017_000105_000039_000313_000407_001321_003013_008035_004395_015917_021105_053599_021341,
  1_069770_000001_000003_000001_000015_000007_000035_000005_000153_000485_001019_000713_001891_005023_013885_015911_048215_081719_228189,
  1_069772_000001_000001_000003_000003_000019_000003_000103_000055_000221_000847_000027_001653_004887_003617_030235_042353_067007_021443,
  1_069826_000001_000001_000007_000015_000015_000039_000065_000189_000251_000411_001953_001187_000141_014919_007763_050879_002569_063467,
  1_069840_000001_000001_000007_000001_000015_000003_000037_000133_000011_000745_000697_003755_001233_002009_025597_040661_040743_198117,
  1_069846_000001_000001_000007_000015_000005_000017_000013_000253_000197_000491_001499_002141_006803_013833_027297_000385_054341_064305,
  1_069868_000001_000003_000005_000007_000003_000011_000019_000193_000441_000575_001649_001821_002621_015803_007343_037361_016467_060629,
  1_069885_000001_000003_000003_000011_000011_000029_000109_000001_000083_000475_001913_001975_001289_005221_024221_007479_026683_203435,
  1_069946_000001_000001_000003_000013_000003_000035_000119_000131_000323_000413_000147_004009_003167_011161_030523_065223_109859_239317,
  1_069966_000001_000003_000001_000011_000025_000017_000103_000165_000437_000163_001141_000105_003655_008105_020859_050727_027915_019309,
  1_069973_000001_000003_000003_000011_000009_000059_000017_000135_000131_000781_000675_002865_007287_011431_003717_056691_054971_083433,
  1_069977_000001_000001_000001_000011_000003_000001_000059_000035_000299_000927_001761_000823_000287_013271_030321_032895_045961_023151,
  1_069980_000001_000003_000003_000007_000011_000003_000011_000115_000241_000497_001359_001789_006677_002683_021145_058185_046131_017591,
  1_069984_000001_000003_000001_000003_000017_000005_000065_000169_000247_001001_001183_001801_000759_002797_028721_007549_112463_127451,
  1_069994_000001_000001_000001_000011_000001_000049_000005_000227_000333_000793_000759_002845_006261_006325_006581_035853_039737_021457,
  1_070024_000001_000001_000001_000003_000007_000017_000081_000105_000453_000207_001113_000301_004933_014715_018815_029165_085251_209171,
  1_070044_000001_000003_000001_000013_000003_000025_000007_000109_000249_000649_001009_000937_000659_014605_013325_026003_045507_166837,
  1_070053_000001_000003_000007_000011_000019_000057_000055_000213_000261_000325_000761_003167_006823_015039_013329_030195_052103_027877,
  1_070086_000001_000003_000003_000011_000031_000045_000003_000185_000225_000143_000651_000327_004263_006005_031577_057779_090485_048393,
  1_070113_000001_000001_000003_000013_000009_000021_000097_000063_000285_000531_001275_000175_000693_003735_015137_062193_080533_196545,
  1_070120_000001_000001_000001_000011_000005_000025_000101_000111_000101_000017_001999_003709_000019_005087_020151_004781_088417_186293,
  1_070131_000001_000001_000005_000007_000031_000037_000039_000085_000451_000189_001521_000619_005021_002601_032447_043513_008317_170611,
  1_070150_000001_000001_000007_000001_000025_000045_000033_000111_000443_000719_001869_003619_005751_002649_027823_055465_113203_023875,
  1_070178_000001_000003_000005_000015_000019_000047_000049_000241_000075_000395_000307_001001_000137_007029_021661_039159_094129_106693,
  1_070198_000001_000003_000007_000001_000007_000035_000085_000027_000285_000975_000565_002119_005861_009229_015877_025017_010551_155357,
  1_070227_000001_000003_000003_000005_000029_000041_000017_000159_000211_000571_000907_001745_006541_011643_004441_054599_083359_057227,
  1_070285_000001_000003_000007_000005_000019_000011_000037_000191_000075_000443_001833_001715_006949_002477_031161_015647_084305_082887,
  1_070288_000001_000001_000003_000009_000029_000035_000087_000011_000147_000443_001659_002457_001615_016135_010729_031583_111583_052607,
  1_070291_000001_000003_000007_000001_000007_000047_000055_000133_000053_000023_000225_002689_003075_012435_008337_037065_058631_247415,
  1_070309_000001_000003_000003_000009_000023_000039_000005_000017_000353_000443_000627_001609_005277_003899_031111_005935_025445_161043,
  1_070334_000001_000003_000003_000011_000031_000011_000097_000099_000037_000169_001361_000689_005481_005935_011957_036761_105641_250905,
  1_070339_000001_000001_000007_000015_000031_000033_000003_000201_000125_000649_000315_000497_007715_002331_009081_016073_088459_070475,
  1_070381_000001_000001_000007_000013_000025_000025_000039_000193_000185_000253_000495_001143_003745_003459_010935_022029_070213_245827,
  1_070413_000001_000003_000003_000011_000001_000047_000093_000027_000117_000755_001837_004045_004839_003413_021395_041905_006505_158029,
  1_070414_000001_000003_000005_000005_000003_000041_000023_000207_000003_000409_001635_003511_000899_000747_010623_044933_062439_075577,
  1_070481_000001_000003_000007_000015_000001_000015_000113_000175_000043_000513_000515_001295_001903_009961_020995_057319_040649_022799,
  1_070488_000001_000001_000005_000009_000007_000025_000099_000167_000117_000547_000777_003819_004409_013465_003963_053355_067895_058007,
  1_070493_000001_000001_000005_000009_000025_000009_000011_000113_000455_000563_000143_001507_004055_006805_025027_037645_000475_193193,
  1_070515_000001_000001_000001_000011_000015_000027_000123_000199_000229_000027_001285_004013_006541_011203_023705_056821_059665_151109,
  1_070540_000001_000001_000003_000001_000031_000019_000027_000129_000235_000407_000865_002723_005387_007727_002309_045787_118107_199907,
  1_070543_000001_000001_000005_000015_000017_000001_000021_000167_000165_000203_000745_000825_007993_015191_013731_013417_000543_201511,
  1_070558_000001_000003_000001_000001_000029_000049_000045_000081_000321_000755_001319_000633_004889_007809_006305_058233_020213_144915,
  1_070568_000001_000001_000003_000013_000001_000031_000073_000173_000111_000961_001995_003827_000879_005567_031103_013227_126611_204507,
  1_070582_000001_000001_000003_000007_000021_000003_000075_000137_000125_000981_001991_001167_001249_003821_019503_052855_122329_068717,
  1_070593_000001_000001_000001_000013_000017_000017_000069_000167_000327_000635_000427_002125_007499_009715_024097_039361_064301_063411,
  1_070596_000001_000001_000001_000001_000031_000057_000055_000031_000289_000251_000823_002301_005965_003381_000479_039545_093051_068683,
  1_070613_000001_000001_000003_000003_000015_000027_000117_000037_000029_000851_001891_003507_006279_000323_011451_057961_041487_188359,
  1_070620_000001_000001_000005_000001_000025_000055_000125_000207_000129_000849_000589_001381_003395_000645_001157_029285_105423_104429,
  1_070647_000001_000001_000007_000007_000009_000047_000041_000103_000473_000395_000883_001087_002827_009685_006313_015461_039803_254865,
  1_070666_000001_000001_000007_000003_000017_000055_000071_000119_000159_000185_001415_003033_003045_001403_018349_002727_123995_045953,
  1_070710_000001_000001_000003_000015_000017_000011_000019_000025_000483_000029_001329_001779_002885_006655_028327_042255_087555_211051,
  1_070719_000001_000003_000005_000011_000029_000019_000043_000141_000157_000087_001091_003505_003139_011919_012123_031581_116229_167875,
  1_070721_000001_000003_000001_000005_000025_000055_000113_000219_000491_000607_001641_003833_003153_001881_016027_039923_038551_204819,
  1_070722_000001_000001_000005_000003_000007_000009_000073_000181_000305_000211_001699_000983_003051_011643_012445_044827_074613_199699,
  1_070742_000001_000001_000003_000005_000023_000021_000115_000049_000311_000205_000963_001357_004013_008357_007065_047757_007937_249935,
  1_070757_000001_000001_000001_000009_000023_000061_000021_000165_000009_000829_000457_003975_005831_010901_015871_036769_045899_162083,
  1_070764_000001_000001_000003_000003_000025_000041_000091_000045_000037_000939_000299_003815_006433_003121_010585_062125_051333_171615,
  1_070781_000001_000001_000005_000011_000001_000001_000039_000045_000141_000803_001493_001151_006243_008683_030223_053661_007949_197291,
  1_070795_000001_000001_000003_000001_000017_000035_000029_000253_000395_000933_001015_003431_000139_009095_030745_039747_058837_028517,
  1_070803_000001_000001_000005_000003_000021_000017_000105_000021_000249_000387_001985_000951_006323_008221_024601_057367_018751_240661,
  1_070809_000001_000001_000007_000009_000005_000021_000023_000149_000243_000501_000935_000855_001821_015885_002239_039091_093615_031411,
  1_070821_000001_000001_000001_000003_000023_000011_000043_000005_000065_000193_001723_003253_007533_012987_000571_056073_125061_097117,
  1_070846_000001_000001_000001_000013_000013_000021_000113_000079_000115_000867_000777_002199_000501_002913_018697_014959_018369_041631,
  1_070882_000001_000001_000007_000013_000013_000053_000101_000165_000447_000995_000587_000201_001701_006429_008647_059265_027321_110841,
  1_070887_000001_000003_000001_000003_000025_000035_000067_000095_000173_000877_001133_003027_002321_012517_004313_024469_040313_253095,
  1_070940_000001_000001_000001_000009_000017_000033_000103_000141_000259_000963_001975_002979_005017_015689_030659_055145_073737_043539,
  1_070961_000001_000003_000001_000015_000007_000007_000007_000001_000267_000415_001591_000017_002451_013415_006993_016631_090019_237161,
  1_070996_000001_000001_000007_000011_000011_000037_000107_000143_000263_000049_001391_003269_006139_001413_026557_016369_086789_089151,
  1_071012_000001_000001_000007_000013_000027_000041_000003_000169_000453_000547_000157_003219_004711_009805_010657_008121_040229_247825,
  1_071046_000001_000003_000003_000003_000025_000025_000109_000253_000067_000901_000259_001159_006161_006763_019669_042775_074089_069821,
  1_071057_000001_000003_000007_000015_000011_000025_000091_000137_000247_000851_000511_001847_001179_000411_009545_031275_046201_169677,
  1_071060_000001_000001_000005_000003_000003_000061_000019_000167_000491_000765_001997_003267_000883_015439_027581_024865_128245_130055,
  1_071063_000001_000001_000003_000009_000017_000061_000007_000109_000325_000347_001109_000889_002995_004763_021551_060137_091833_126989,
  1_071079_000001_000003_000003_000007_000005_000017_000061_000107_000209_000577_000885_002611_001471_007549_016199_012319_048865_242229,
  1_071080_000001_000003_000005_000001_000005_000049_000085_000177_000213_000583_000857_000179_001805_004297_005835_061923_022741_261983,
  1_071111_000001_000003_000001_000013_000001_000001_000083_000227_000457_000375_000567_001563_002085_008153_012563_044561_115487_188351,
  1_071118_000001_000003_000001_000009_000015_000039_000127_000135_000181_000967_001495_003187_007463_009651_026261_057435_042069_048549]

def dirRows18_1_16 : List Nat := [
  1_071129_000001_000003_000001_000007_000005_000031_000111_000019_000019_000855_000273_002089_006001_002799_026013_006625_075623_150185,
  1_071136_000001_000001_000007_000001_000031_000019_000015_000159_000035_000791_001005_003947_007031_000041_028807_045299_037761_101191,
  1_071142_000001_000003_000005_000003_000015_000007_000007_000067_000329_000367_000843_002309_003023_005369_021561_018881_014395_193369,
  1_071145_000001_000003_000003_000011_000021_000053_000003_000251_000087_000131_000563_000847_008049_001639_030103_030461_108427_125197,
  1_071151_000001_000001_000001_000005_000021_000045_000079_000229_000029_000133_001873_000261_004221_003091_025569_011219_070693_227025,
  1_071163_000001_000003_000001_000005_000017_000009_000075_000101_000155_000311_000789_000821_007361_003791_018511_057607_097647_042107,
  1_071218_000001_000003_000001_000011_000021_000039_000033_000179_000007_000775_000055_003779_006163_003575_027535_032363_009169_057133,
  1_071223_000001_000003_000007_000003_000019_000033_000019_000011_000173_000175_000219_003585_001115_015693_023481_045669_094149_019531,
  1_071232_000001_000001_000005_000011_000011_000049_000029_000217_000229_000757_001031_003833_004235_013535_008765_020707_052851_009037,
  1_071237_000001_000003_000001_000013_000025_000061_000065_000111_000095_000533_001235_002947_003239_009513_011395_009321_117535_228289,
  1_071272_000001_000001_000001_000003_000019_000033_000013_000233_000331_000811_001931_001109_007705_003129_019757_044325_097903_165311,
  1_071323_000001_000001_000003_000015_000013_000055_000057_000081_000257_000613_001305_000653_006059_004935_015707_004717_001859_109265,
  1_071339_000001_000001_000007_000015_000015_000019_000019_000091_000213_000311_001651_002215_006985_002989_011961_028647_111163_217187,
  1_071341_000001_000003_000003_000005_000015_000031_000045_000193_000119_000011_000511_003155_005989_000813_032655_041531_121007_024733,
  1_071349_000001_000003_000007_000001_000019_000063_000061_000011_000225_000677_001323_001655_007607_015691_027083_056743_116167_250413,
  1_071368_000001_000001_000001_000015_000007_000025_000027_000213_000171_001011_001483_000119_006849_012527_020601_035701_068377_245669,
  1_071379_000001_000003_000007_000005_000027_000005_000007_000117_000127_000871_000631_003395_001501_004839_001857_045769_107597_090385,
  1_071395_000001_000001_000003_000013_000001_000015_000049_000069_000479_000919_000881_003069_005609_012795_030225_014411_122847_075569,
  1_071407_000001_000001_000005_000009_000001_000015_000091_000207_000235_000667_000321_002047_000841_016049_012499_008799_008245_042199,
  1_071421_000001_000003_000007_000015_000011_000019_000099_000163_000331_000953_000791_003443_003215_008025_001999_043685_072595_153185,
  1_071430_000001_000003_000001_000013_000025_000023_000017_000133_000059_000233_000151_001971_003611_003951_016979_000991_073325_158475,
  1_071436_000001_000003_000005_000011_000001_000053_000123_000081_000285_000457_001183_000489_000939_003069_015845_024799_081301_105187,
  1_071454_000001_000003_000005_000001_000011_000005_000061_000151_000005_000813_001347_001107_004915_004035_018709_020909_060569_055007,
  1_071467_000001_000003_000003_000007_000027_000041_000079_000193_000471_000415_000937_002561_001669_009213_021145_044917_064763_033195,
  1_071472_000001_000003_000007_000013_000031_000005_000071_000237_000419_000957_001741_002829_005879_008143_008717_048995_114465_110295,
  1_071478_000001_000001_000007_000003_000007_000023_000083_000161_000381_000313_000383_002813_000333_004647_018321_010437_111645_055509,
  1_071481_000001_000001_000005_000009_000023_000001_000083_000121_000245_000037_001097_001437_003891_002727_030775_027649_095571_216245,
  1_071501_000001_000001_000005_000007_000001_000043_000059_000253_000329_000421_000791_003945_002599_002243_011121_037761_027223_176867,
  1_071519_000001_000003_000005_000005_000025_000059_000085_000155_000367_000291_001025_001415_007871_014191_023249_032233_093253_177869,
  1_071530_000001_000001_000001_000009_000021_000041_000111_000241_000177_000999_000779_002827_001683_006405_016133_026523_102567_190313,
  1_071550_000001_000003_000003_000015_000013_000059_000069_000239_000231_000511_001675_000147_004041_003723_029191_024913_015601_198141,
  1_071573_000001_000003_000003_000009_000017_000029_000001_000107_000243_000509_001949_000205_001693_006339_031591_061527_128043_222497,
  1_071593_000001_000003_000007_000003_000021_000007_000087_000057_000009_000209_001831_002189_005523_008509_023687_046221_087469_146815,
  1_071608_000001_000003_000007_000009_000005_000045_000051_000207_000401_000681_000469_001951_000793_016379_032143_055457_091787_178569,
  1_071619_000001_000003_000003_000009_000019_000015_000121_000143_000243_000795_001839_002411_007175_011535_031995_004157_020111_092653,
  1_071622_000001_000003_000001_000001_000001_000005_000047_000107_000455_000429_001411_002375_002823_014657_016297_021893_115257_050343,
  1_071636_000001_000003_000005_000009_000019_000063_000055_000197_000281_000797_001539_002601_004497_001631_026583_023819_104553_027285,
  1_071650_000001_000001_000003_000009_000023_000041_000123_000037_000327_000789_001711_001299_006735_007243_030635_021251_056081_065623,
  1_071655_000001_000003_000007_000015_000025_000049_000089_000231_000133_001003_000351_000765_007115_016239_001141_044063_031519_233719,
  1_071685_000001_000003_000007_000003_000013_000037_000093_000083_000059_000539_001185_000525_000705_000993_001113_001871_060817_254075,
  1_071703_000001_000003_000007_000011_000025_000033_000023_000021_000141_000451_000025_001321_005139_008947_010305_030175_043123_113049,
  1_071714_000001_000003_000005_000005_000017_000001_000125_000211_000143_000637_001175_001149_006775_011091_012503_005537_035379_030045,
  1_071748_000001_000001_000001_000015_000017_000031_000123_000033_000279_000831_001247_002305_001033_003201_000231_023173_034453_066617,
  1_071758_000001_000003_000003_000001_000003_000001_000023_000115_000421_000553_000273_004091_005965_007521_018393_031229_078533_243921,
  1_071766_000001_000001_000007_000015_000015_000029_000073_000165_000391_000215_001801_000045_007451_006969_027897_036599_103647_145165,
  1_071772_000001_000003_000003_000013_000005_000007_000067_000081_000477_000301_001397_000921_003777_012431_014753_050555_024497_052995,
  1_071785_000001_000001_000005_000005_000027_000021_000091_000155_000405_000347_001135_003701_002471_000577_003927_052605_001725_025803,
  1_071794_000001_000003_000001_000003_000015_000057_000117_000175_000437_000013_001821_000649_000899_001295_002753_002183_047923_163407,
  1_071796_000001_000003_000005_000009_000023_000015_000103_000179_000233_000787_000715_003751_003321_002069_008299_043417_096549_180737,
  1_071803_000001_000003_000007_000009_000001_000041_000081_000205_000141_000707_000397_000763_004797_008843_003311_037425_043873_131491,
  1_071809_000001_000001_000005_000003_000009_000029_000123_000163_000015_000871_000159_002615_006987_000471_025653_011295_094481_195409,
  1_071858_000001_000003_000007_000003_000013_000007_000009_000059_000059_000381_002027_002639_000059_007977_014505_034327_099113_157439,
  1_071863_000001_000001_000005_000009_000027_000013_000087_000085_000443_000531_001069_003479_006547_013943_013711_011007_037395_190293,
  1_071878_000001_000003_000007_000009_000019_000047_000095_000229_000395_000979_000359_001799_007389_014377_019371_056785_006699_215433,
  1_071895_000001_000001_000001_000005_000021_000015_000059_000017_000281_000585_000293_003029_002539_016089_000019_034757_115811_235565,
  1_071899_000001_000001_000007_000011_000027_000019_000055_000217_000475_000119_001291_001761_006879_004355_030019_017573_014987_204623,
  1_071906_000001_000001_000007_000011_000029_000047_000005_000201_000165_000845_000385_002903_007735_010855_014171_017881_045001_100725,
  1_071908_000001_000001_000005_000005_000031_000057_000099_000035_000315_000363_001135_000897_001041_000729_026987_015299_029563_067293,
  1_071917_000001_000001_000005_000007_000027_000013_000099_000081_000491_000887_001309_003343_007241_001289_012021_052533_101799_238721,
  1_071952_000001_000001_000001_000011_000027_000049_000079_000235_000049_000215_002003_002771_005943_001183_031931_033885_056971_052665,
  1_071957_000001_000001_000001_000013_000013_000001_000123_000001_000191_000747_000859_002287_005113_003715_002217_061483_000195_237163,
  1_071961_000001_000003_000007_000015_000013_000013_000017_000207_000141_000821_000231_001373_005355_006503_002403_018183_083717_170047,
  1_071973_000001_000003_000001_000003_000013_000011_000041_000051_000443_000201_001349_002331_001009_016169_005247_050315_015589_150497,
  1_071980_000001_000003_000005_000013_000029_000021_000093_000055_000027_000017_001615_003473_003641_010999_031955_004699_023585_141243,
  1_071997_000001_000003_000003_000011_000011_000027_000125_000139_000053_000637_000241_002651_004999_005923_016203_013645_095965_094459,
  1_072017_000001_000003_000007_000003_000009_000053_000087_000171_000489_000691_000303_003599_006093_000841_003527_012953_022907_069823,
  1_072060_000001_000001_000005_000013_000031_000011_000033_000207_000437_000683_000703_001757_001443_014269_012677_020877_046791_176135,
  1_072091_000001_000001_000007_000001_000013_000053_000123_000199_000173_000585_001099_003653_002253_013741_015675_038755_074545_139053,
  1_072097_000001_000003_000003_000003_000017_000011_000001_000161_000383_000409_000605_000889_000827_000263_009677_042857_127691_099621,
  1_072166_000001_000003_000005_000009_000021_000021_000011_000151_000199_000695_000493_000569_000881_010533_011255_061997_124921_211139,
  1_072172_000001_000003_000005_000005_000009_000047_000109_000007_000195_000287_000097_003691_006929_006985_003063_016185_006313_228147,
  1_072183_000001_000003_000001_000003_000003_000009_000107_000243_000391_000893_001207_002229_005295_000723_014753_010921_104147_214941,
  1_072203_000001_000003_000001_000009_000005_000063_000063_000247_000413_000805_000285_004001_006735_003531_025949_044845_066959_194429,
  1_072205_000001_000001_000003_000001_000015_000015_000043_000069_000419_000739_001739_001091_001043_003217_001139_044749_074131_165145,
  1_072213_000001_000001_000003_000009_000017_000053_000119_000025_000427_000791_001873_000481_006793_004767_030449_018079_052105_260371,
  1_072214_000001_000001_000003_000015_000015_000041_000015_000053_000395_000571_001727_003081_004531_004215_022359_018165_091843_157273,
  1_072230_000001_000003_000003_000009_000019_000015_000055_000185_000321_000285_000695_001067_002551_001401_020023_022671_021365_089053,
  1_072239_000001_000001_000007_000015_000023_000057_000071_000141_000057_000479_000543_003783_003635_014011_023603_040877_021837_081079,
  1_072248_000001_000003_000007_000011_000031_000005_000083_000177_000105_000981_000331_002901_001781_008407_030199_019287_116219_078471,
  1_072251_000001_000001_000001_000009_000007_000013_000061_000021_000299_000015_001045_000475_007141_004827_005921_017323_042909_203623,
  1_072280_000001_000003_000007_000001_000017_000059_000099_000221_000077_000037_001263_002137_001567_012473_020029_009231_032739_017021,
  1_072313_000001_000001_000001_000005_000023_000061_000039_000013_000097_000191_001479_000019_001913_003185_032393_059067_005483_158895,
  1_072338_000001_000001_000001_000007_000005_000051_000081_000223_000435_000939_000781_001153_006409_006369_030559_019007_050121_026525,
  1_072340_000001_000003_000003_000005_000029_000001_000057_000127_000153_000897_000161_000683_000295_011207_000245_001819_003061_242609,
  1_072343_000001_000001_000001_000007_000005_000019_000105_000057_000263_000433_001339_001479_006671_009917_026299_004573_068725_000195,
  1_072368_000001_000003_000005_000015_000001_000019_000045_000095_000155_000117_000367_002051_001053_008847_006399_023641_095355_098415,
  1_072371_000001_000003_000003_000015_000003_000001_000005_000115_000349_000747_001865_001669_000659_007097_007871_003685_011013_059837,
  1_072426_000001_000003_000003_000005_000009_000047_000051_000131_000327_000903_000975_002481_003509_012481_004049_038053_004629_254415,
  1_072439_000001_000003_000005_000009_000031_000047_000001_000029_000037_000683_001363_002527_004019_004965_014077_014191_000101_001945,
  1_072446_000001_000001_000007_000001_000009_000035_000041_000187_000509_000033_000385_003907_001461_006827_006931_044723_109495_184641,
  1_072494_000001_000003_000005_000009_000005_000049_000021_000171_000353_000927_000409_000913_005199_011747_008777_019891_063189_118839,
  1_072519_000001_000003_000003_000001_000027_000049_000043_000157_000075_000469_000787_003957_004147_013919_017489_057103_062091_135589,
  1_072573_000001_000001_000003_000011_000007_000045_000029_000177_000185_000185_001537_000127_000121_000817_031269_001677_020245_003835,
  1_072577_000001_000001_000005_000003_000021_000009_000067_000079_000391_000971_001711_002607_005705_012863_012415_041255_026447_001643,
  1_072578_000001_000001_000005_000005_000009_000063_000067_000245_000031_000225_000309_001753_001507_000817_004275_051843_022331_196875,
  1_072614_000001_000003_000001_000013_000015_000039_000003_000245_000147_000485_000241_002507_001859_007299_015037_041139_082757_224031,
  1_072628_000001_000003_000003_000015_000007_000051_000009_000103_000037_000643_000025_002067_007619_011991_012885_046809_109107_022393,
  1_072640_000001_000001_000001_000009_000001_000055_000119_000085_000115_000827_000187_002241_002553_000577_012115_002391_069705_232101,
  1_072676_000001_000001_000005_000007_000013_000061_000125_000129_000475_000703_001723_003233_005713_001941_021375_042119_075199_073163,
  1_072708_000001_000001_000005_000005_000005_000021_000073_000155_000493_000081_001627_000827_005925_007391_001587_039425_011807_064385]

def dirRows18_1_17 : List Nat := [
  1_072717_000001_000003_000001_000015_000027_000035_000111_000183_000283_000335_001387_000669_006041_011637_026255_021113_121183_219703,
  1_072766_000001_000003_000005_000015_000015_000023_000119_000091_000197_000809_000975_003275_006171_011769_008385_005461_004561_029159,
  1_072786_000001_000001_000005_000009_000029_000009_000107_000233_000417_001005_000799_001437_002679_015643_032341_054055_027861_115483,
  1_072788_000001_000001_000005_000007_000027_000019_000095_000153_000175_000407_000215_000303_008165_014791_002099_061797_129411_010461,
  1_072795_000001_000001_000001_000013_000025_000051_000011_000077_000097_000495_000971_000449_002833_007121_024105_034527_123135_129305,
  1_072797_000001_000001_000007_000011_000023_000009_000111_000101_000169_000233_000267_000953_006379_015887_022921_033665_095195_159707,
  1_072798_000001_000001_000005_000015_000021_000003_000021_000057_000173_000513_002027_001235_005031_005375_002717_023361_071817_232101,
  1_072808_000001_000003_000003_000011_000007_000025_000043_000065_000019_000135_001611_000085_007673_006459_027813_055557_100989_025205,
  1_072826_000001_000003_000007_000001_000015_000037_000055_000141_000239_000205_000647_003715_001617_013507_009847_064681_108711_231329,
  1_072835_000001_000003_000005_000009_000021_000027_000079_000153_000335_000299_000493_000887_001457_016011_013795_050205_043319_130963,
  1_072837_000001_000001_000003_000001_000023_000059_000121_000083_000463_000151_000323_002977_004769_006011_020135_059541_023179_203487,
  1_072865_000001_000001_000005_000007_000009_000017_000063_000149_000059_000281_000763_000619_002551_008179_002963_061283_107727_119817,
  1_072871_000001_000003_000007_000003_000015_000039_000011_000145_000141_000965_000505_002625_004335_007619_011007_043321_033199_212661,
  1_072872_000001_000003_000005_000009_000009_000061_000027_000223_000005_000941_000513_001437_000481_009651_006567_057945_052547_021283,
  1_072898_000001_000003_000001_000001_000025_000001_000087_000025_000121_000757_000529_003857_001321_013479_005357_049341_005797_235895,
  1_072907_000001_000003_000005_000001_000021_000035_000037_000215_000509_000165_001423_003067_004779_004693_012523_048099_069283_255111,
  1_072909_000001_000001_000003_000001_000031_000015_000045_000127_000339_000331_001249_001075_006169_002941_030471_046789_118039_224651,
  1_072917_000001_000001_000005_000013_000021_000037_000039_000061_000191_000017_000177_003719_002177_011039_020047_014489_020475_171235,
  1_072934_000001_000001_000003_000009_000019_000011_000065_000111_000121_000901_000099_001861_003687_000765_024861_046315_063433_171679,
  1_072987_000001_000003_000001_000007_000001_000051_000087_000199_000241_000909_000353_002471_007163_009547_016351_041129_012217_194099,
  1_073000_000001_000001_000007_000007_000017_000017_000127_000067_000051_000217_001189_000019_002099_010281_009071_021185_122821_110211,
  1_073005_000001_000003_000003_000007_000015_000003_000053_000045_000077_000665_000701_003175_006151_002639_019819_001063_025079_203343,
  1_073014_000001_000001_000005_000011_000011_000005_000103_000011_000481_000999_000713_000499_005069_000921_020619_025623_069601_082941,
  1_073023_000001_000003_000005_000009_000015_000061_000067_000079_000371_000993_000475_000617_001611_012513_014907_055313_039207_112653,
  1_073025_000001_000001_000005_000015_000017_000045_000091_000187_000175_000465_000907_003371_003743_015657_030511_058191_105683_216759,
  1_073074_000001_000001_000005_000009_000023_000001_000017_000079_000073_000717_001785_000677_007377_004511_021927_034341_047119_193977,
  1_073076_000001_000003_000007_000013_000021_000001_000059_000179_000121_000641_000175_000563_000961_010549_015779_049875_008109_001039,
  1_073113_000001_000001_000005_000007_000017_000009_000037_000171_000335_000135_001403_002541_003845_015311_001905_040853_011013_255669,
  1_073116_000001_000001_000007_000001_000005_000023_000113_000111_000337_000755_002037_003067_002821_010549_028467_022615_071585_061871,
  1_073140_000001_000001_000003_000009_000007_000003_000049_000229_000111_000871_001711_001793_003089_012571_030883_044773_080827_151709,
  1_073149_000001_000001_000005_000001_000013_000041_000003_000253_000399_000881_001107_004081_001849_000115_031557_002515_126751_195663,
  1_073186_000001_000001_000003_000001_000013_000031_000113_000085_000057_000549_001653_002927_005433_011879_022709_041675_013395_046931,
  1_073188_000001_000001_000003_000009_000021_000001_000109_000065_000377_000063_000861_001031_002709_007265_009861_064109_034577_009743,
  1_073191_000001_000001_000007_000007_000017_000031_000005_000177_000253_000387_001271_002805_002211_001813_011649_003217_123793_197753,
  1_073205_000001_000001_000003_000009_000015_000063_000089_000059_000455_000783_001181_000007_002309_015961_011231_037389_101221_119331,
  1_073215_000001_000003_000003_000013_000007_000003_000015_000251_000431_000951_000639_001585_001247_015927_009695_037469_034945_219723,
  1_073216_000001_000001_000005_000003_000021_000029_000083_000151_000383_000227_000215_002329_001297_013709_015653_003119_111319_222877,
  1_073239_000001_000003_000001_000013_000001_000043_000127_000125_000243_000955_000583_003497_006605_003821_004657_010599_090927_082725,
  1_073294_000001_000001_000001_000001_000015_000051_000061_000167_000489_000603_000873_000907_000575_006957_024409_063587_050205_159291,
  1_073311_000001_000003_000003_000001_000019_000023_000007_000023_000239_000961_001001_001541_002211_004637_019931_039153_102769_242005,
  1_073330_000001_000001_000001_000015_000019_000031_000073_000121_000119_000199_000979_004061_003903_012055_027957_015999_005709_210329,
  1_073366_000001_000001_000007_000013_000025_000035_000021_000025_000241_000937_000013_000947_000943_003727_015321_046665_099437_233919,
  1_073379_000001_000001_000001_000009_000003_000051_000127_000113_000105_000335_000685_002173_004329_007569_005617_032407_021649_030609,
  1_073386_000001_000003_000007_000009_000009_000013_000069_000191_000095_000727_001649_001201_002093_010053_029381_006207_070755_118505,
  1_073391_000001_000001_000001_000011_000021_000057_000077_000139_000271_000021_001747_002337_007761_007753_006847_005219_087033_229105,
  1_073418_000001_000003_000003_000001_000005_000051_000015_000235_000087_000567_000391_003039_002253_011177_011899_025305_014815_051051,
  1_073438_000001_000003_000005_000007_000027_000051_000069_000093_000261_000947_000031_002751_006685_003655_024125_022161_108421_230865,
  1_073476_000001_000001_000003_000003_000027_000017_000035_000097_000285_000855_001767_002545_000825_011519_011231_050951_032883_078573,
  1_073503_000001_000003_000007_000013_000001_000057_000099_000193_000371_000839_001319_002295_005897_007893_014339_064217_016951_234953,
  1_073509_000001_000003_000001_000003_000011_000037_000013_000021_000299_000379_000063_001209_007879_005001_010181_040173_001753_104821,
  1_073534_000001_000003_000005_000009_000023_000051_000075_000103_000249_000533_000621_000015_001883_002109_020859_004635_120615_135515,
  1_073545_000001_000001_000003_000003_000021_000045_000113_000057_000495_000457_000685_003625_000243_014831_012351_063001_118191_153875,
  1_073548_000001_000003_000005_000005_000021_000015_000065_000251_000183_000241_001513_002711_004527_012675_026747_005181_004237_246479,
  1_073563_000001_000001_000005_000003_000027_000029_000091_000093_000345_000893_000195_003109_002611_012657_010401_015063_095807_244587,
  1_073575_000001_000003_000005_000013_000019_000049_000085_000155_000159_000939_001139_001569_001129_008641_018391_055201_108491_077863,
  1_073582_000001_000003_000005_000009_000025_000053_000075_000077_000085_000903_001399_002379_002219_014725_021877_024271_040955_061849,
  1_073603_000001_000001_000005_000009_000013_000049_000053_000177_000163_000331_000533_001469_001397_008187_012379_010185_125541_260271,
  1_073609_000001_000001_000007_000009_000019_000031_000081_000089_000281_000397_001917_000145_002723_015019_018841_013887_011859_171749,
  1_073610_000001_000003_000007_000013_000025_000017_000087_000189_000029_000283_000913_003855_005707_015881_012787_042357_084579_078531,
  1_073645_000001_000001_000005_000015_000015_000031_000037_000249_000445_000119_000431_004069_005699_010119_031661_009555_006869_001145,
  1_073646_000001_000003_000007_000001_000031_000029_000057_000177_000341_000411_001019_001889_000383_001461_026695_061777_018367_137233,
  1_073678_000001_000003_000005_000001_000007_000053_000029_000053_000387_000675_000435_000461_006247_007519_014003_009037_116599_054471,
  1_073685_000001_000003_000003_000007_000017_000059_000091_000077_000169_000591_000095_000113_006135_010479_017153_052953_016183_090775,
  1_073708_000001_000003_000003_000015_000011_000011_000117_000141_000493_000163_000065_001305_007477_007383_022651_064271_080983_154845,
  1_073747_000001_000001_000001_000003_000009_000015_000083_000011_000113_000077_001115_001417_000511_006825_021013_037241_104695_031335,
  1_073765_000001_000001_000007_000003_000013_000033_000115_000121_000245_000673_001991_002157_000479_009843_005963_004637_008925_027751,
  1_073797_000001_000003_000003_000007_000019_000011_000067_000125_000339_000027_001545_002319_005977_011603_023219_048273_119265_020151,
  1_073810_000001_000001_000005_000007_000027_000029_000031_000227_000279_000405_001133_000689_001133_008957_029629_048849_109995_259749,
  1_073819_000001_000003_000005_000007_000007_000061_000095_000243_000091_000741_001591_003169_002287_011015_015601_043043_065319_050671,
  1_073825_000001_000001_000005_000005_000013_000047_000031_000095_000425_000715_001603_003485_000673_012869_032561_042329_112809_181971,
  1_073845_000001_000003_000003_000003_000017_000051_000109_000045_000397_000457_001379_003845_004215_014185_016597_027711_074283_098151,
  1_073855_000001_000001_000001_000015_000007_000025_000013_000049_000441_000513_001769_000707_006037_009689_018915_035647_110823_196633,
  1_073866_000001_000001_000001_000001_000023_000053_000093_000061_000277_000125_000055_002453_003331_014037_010809_033205_043785_248743,
  1_073890_000001_000001_000003_000007_000023_000015_000093_000077_000333_000801_001969_000031_000051_005239_024241_005077_113503_132211,
  1_073919_000001_000003_000003_000001_000007_000055_000053_000005_000311_000657_001507_003413_000565_015745_006129_040285_091811_090527,
  1_073922_000001_000003_000003_000013_000019_000023_000045_000025_000509_000313_000915_002199_005549_008469_032735_037877_011607_037993,
  1_073936_000001_000001_000005_000011_000025_000033_000055_000031_000311_000851_000159_002103_002641_008957_009375_037179_033667_100513,
  1_073939_000001_000003_000001_000001_000007_000007_000017_000075_000217_000171_000359_001169_004105_000929_006427_056349_077985_041941,
  1_073964_000001_000001_000001_000015_000005_000051_000073_000063_000259_000351_001797_001001_005025_011203_030221_054345_011331_158415,
  1_073976_000001_000003_000001_000005_000003_000021_000013_000003_000063_000779_000871_002517_006345_004103_016321_030211_120815_083751,
  1_073984_000001_000001_000003_000013_000011_000007_000041_000255_000215_000037_000279_002485_006511_012855_022857_055695_122717_238151,
  1_073990_000001_000003_000003_000003_000001_000055_000027_000193_000509_000677_001861_000573_005341_005285_006909_051781_091203_139791,
  1_074013_000001_000003_000007_000011_000005_000063_000087_000215_000305_000235_001049_001339_005301_009639_029861_058415_068303_076907,
  1_074014_000001_000001_000005_000011_000013_000013_000067_000139_000019_000577_000165_003067_008023_010905_003159_041289_118231_119673,
  1_074020_000001_000001_000003_000001_000015_000005_000069_000119_000363_000703_000461_002293_003801_014217_010709_009553_100651_186115,
  1_074035_000001_000003_000007_000015_000019_000021_000059_000237_000227_000193_000827_000619_003447_013815_003467_038911_041403_099627,
  1_074038_000001_000001_000003_000003_000027_000023_000041_000199_000161_000555_001629_003187_001355_005947_001157_025877_110989_231285,
  1_074069_000001_000001_000003_000015_000003_000043_000103_000029_000179_000223_000375_002877_001917_009367_015337_015381_062833_139003,
  1_074119_000001_000003_000003_000011_000023_000033_000107_000189_000511_000209_001519_002809_006185_005921_020939_063879_113687_079149,
  1_074123_000001_000003_000005_000015_000001_000063_000101_000227_000419_000803_000059_002261_006905_010679_005393_054447_058521_059855,
  1_074126_000001_000001_000007_000013_000013_000021_000121_000123_000181_000371_001485_003191_002627_006197_011169_044927_034739_010687,
  1_074153_000001_000001_000003_000003_000025_000047_000013_000115_000187_000967_001439_001021_004413_003343_031463_003729_013511_162125,
  1_074179_000001_000003_000003_000015_000015_000059_000029_000129_000469_000171_002045_002859_001097_011199_012147_037465_014179_197923,
  1_074200_000001_000001_000007_000005_000013_000035_000041_000167_000207_000123_001077_003145_002803_015729_000767_007321_084375_190855,
  1_074210_000001_000003_000005_000011_000003_000005_000065_000003_000111_000725_000143_002945_004755_003407_031801_015329_070311_119197,
  1_074216_000001_000001_000005_000003_000017_000019_000061_000073_000261_000663_000821_003389_003883_009961_017727_033113_098371_247097,
  1_074250_000001_000003_000001_000009_000029_000017_000043_000043_000481_001015_001249_000607_003495_013259_029001_023083_051487_081723,
  1_074263_000001_000003_000001_000003_000025_000057_000005_000033_000313_000021_001731_003417_007033_006609_031631_063231_061107_010941,
  1_074264_000001_000003_000003_000011_000029_000029_000117_000131_000417_000789_001545_001677_003213_013869_005319_041387_013895_252387,
  1_074279_000001_000003_000003_000013_000025_000047_000055_000213_000083_000345_001453_000159_001521_014777_024177_007631_081259_135411]

def dirRows18_1_18 : List Nat := [
  1_074285_000001_000001_000003_000015_000011_000063_000049_000069_000273_000843_001661_001157_001285_012751_000005_054909_114375_006395,
  1_074294_000001_000003_000001_000011_000025_000001_000083_000055_000161_000125_001547_000401_007639_004289_007075_009971_033825_135071,
  1_074298_000001_000003_000007_000009_000017_000005_000079_000131_000373_001023_000573_002219_001789_005789_005347_026455_058661_206417,
  1_074303_000001_000001_000007_000005_000001_000043_000083_000107_000125_000289_000793_001731_005167_008943_028397_026877_053781_095899,
  1_074306_000001_000003_000003_000013_000021_000053_000123_000103_000385_000753_001917_002075_004385_005757_009221_035797_086743_069069,
  1_074366_000001_000003_000003_000003_000005_000019_000119_000221_000457_000907_000359_003493_002331_005685_011133_029293_027051_213927,
  1_074369_000001_000001_000003_000011_000011_000031_000029_000129_000429_000601_001217_003653_005935_014823_021161_033423_098391_214703,
  1_074403_000001_000001_000003_000015_000031_000049_000109_000139_000349_000013_000205_002483_008083_008391_004789_030355_012165_195263,
  1_074406_000001_000001_000001_000009_000019_000063_000015_000167_000045_000185_000811_000529_006811_013441_027195_059047_106675_167125,
  1_074442_000001_000001_000007_000001_000019_000019_000039_000001_000349_000467_000551_004081_004743_011627_000607_022005_060893_049101,
  1_074450_000001_000003_000007_000009_000009_000025_000105_000119_000113_000825_001429_002019_005209_008491_006017_047783_088455_119083,
  1_074452_000001_000003_000003_000013_000021_000039_000107_000119_000321_000251_000563_000311_004441_006491_003157_065479_107349_211621,
  1_074459_000001_000001_000007_000013_000009_000003_000017_000117_000327_000459_000489_000007_006883_010047_031935_028069_037903_188281,
  1_074461_000001_000001_000007_000001_000015_000053_000047_000127_000483_000595_000811_001143_004543_010043_030349_024409_091947_240165,
  1_074477_000001_000001_000001_000013_000025_000043_000109_000161_000147_001009_001071_001533_002781_013439_020507_041387_026943_084675,
  1_074478_000001_000003_000005_000013_000019_000021_000023_000167_000135_000257_000587_002691_005877_003047_011745_024895_114799_048003,
  1_074489_000001_000003_000001_000001_000009_000057_000033_000051_000137_000109_000137_000195_001233_011139_016833_027545_035877_126627,
  1_074504_000001_000001_000001_000015_000005_000037_000007_000019_000363_000411_001193_000767_006209_009115_014699_055515_046023_090693,
  1_074528_000001_000003_000005_000003_000019_000055_000085_000117_000391_000757_000861_003537_006507_006993_019589_006843_033557_064683,
  1_074533_000001_000001_000007_000005_000005_000061_000099_000009_000311_000595_000807_000429_000063_012359_028289_000709_129911_143745,
  1_074538_000001_000001_000001_000007_000017_000009_000009_000117_000019_000985_000657_002803_002699_000829_031069_013277_106769_109231,
  1_074551_000001_000001_000005_000013_000025_000019_000063_000217_000419_000221_001921_000215_002631_004659_029855_046549_062257_260113,
  1_074580_000001_000003_000003_000009_000013_000045_000063_000129_000147_000489_000879_003025_006777_001119_020963_030553_020863_169837,
  1_074589_000001_000003_000005_000009_000025_000061_000079_000051_000495_000583_001519_001501_000123_013871_032239_000957_031921_255561,
  1_074590_000001_000003_000007_000003_000031_000061_000089_000065_000305_000429_000785_003871_007711_002745_024131_043055_051167_087743,
  1_074593_000001_000003_000001_000011_000019_000023_000089_000117_000185_000121_000109_001327_006553_014367_016069_028657_081751_010185,
  1_074608_000001_000003_000005_000005_000017_000033_000115_000061_000101_000367_001465_003899_006601_004483_002447_049575_129987_011703,
  1_074611_000001_000001_000003_000013_000013_000059_000079_000083_000253_000171_000053_002467_005005_001045_000943_062419_098563_078935,
  1_074617_000001_000001_000007_000015_000031_000017_000077_000073_000249_000247_000119_001655_007079_014593_000105_055767_130401_074189,
  1_074623_000001_000003_000005_000011_000019_000029_000079_000251_000075_000949_000527_002779_005839_011451_024125_045991_127437_086541,
  1_074648_000001_000001_000005_000007_000001_000029_000127_000027_000477_000807_000829_001569_000205_013319_016149_026003_038985_188587,
  1_074704_000001_000001_000001_000003_000019_000029_000039_000071_000017_000051_001169_000467_007505_001867_004469_032161_043031_031675,
  1_074735_000001_000001_000001_000015_000027_000045_000067_000107_000127_000469_001955_001933_002379_008513_032071_035043_126537_023303,
  1_074737_000001_000003_000007_000009_000023_000041_000023_000197_000097_000213_000017_001751_005467_006179_029291_033397_042131_151093,
  1_074738_000001_000003_000007_000015_000027_000003_000039_000087_000365_000077_000487_000293_006405_002239_030455_044723_012399_100013,
  1_074779_000001_000003_000005_000009_000029_000021_000055_000183_000343_000263_001643_002027_002255_006259_018277_064661_039391_255839,
  1_074781_000001_000001_000007_000011_000021_000055_000011_000139_000261_000011_001721_003779_000085_008203_012089_050579_128341_119043,
  1_074809_000001_000003_000005_000013_000027_000053_000109_000001_000313_000661_000431_001543_001571_007337_018857_049951_007881_228161,
  1_074812_000001_000001_000007_000005_000005_000031_000027_000149_000239_000199_001011_001979_005297_014609_026971_065531_064215_115109,
  1_074827_000001_000001_000005_000013_000015_000011_000063_000225_000165_000405_001367_002291_005171_012419_019561_037719_000621_137607,
  1_074868_000001_000003_000001_000015_000025_000001_000125_000243_000097_000455_001977_003333_000801_001343_000993_018453_019285_071547,
  1_074871_000001_000001_000005_000011_000009_000051_000109_000135_000073_000147_000649_004071_007425_003093_026417_051139_001523_142225,
  1_074905_000001_000003_000007_000011_000001_000039_000109_000119_000337_000715_001087_004005_001393_006397_031135_038935_106255_060723,
  1_074930_000001_000001_000001_000009_000009_000011_000045_000011_000171_000671_000965_000109_002261_013775_008539_063669_010507_249113,
  1_074962_000001_000003_000001_000015_000021_000033_000127_000173_000419_000031_000299_000857_004915_011331_029385_047375_111891_014505,
  1_074990_000001_000003_000005_000013_000007_000043_000085_000183_000377_000275_000803_001755_008005_015327_031043_018851_122581_229731,
  1_074995_000001_000003_000005_000001_000027_000009_000041_000073_000283_000475_000671_000747_001419_015209_025465_060061_091417_103203,
  1_075007_000001_000003_000001_000015_000015_000043_000013_000045_000217_000519_000363_003265_006213_013045_003709_022119_079733_224195,
  1_075012_000001_000003_000001_000015_000015_000059_000095_000071_000171_000769_001395_002673_004523_000749_013411_060431_124651_011475,
  1_075030_000001_000001_000007_000003_000001_000035_000013_000239_000101_000355_001201_003665_005403_011413_011983_052469_063621_155819,
  1_075033_000001_000001_000001_000007_000031_000059_000087_000025_000511_000483_000569_003337_004027_008347_003031_024351_057963_079425,
  1_075039_000001_000003_000001_000003_000011_000017_000029_000249_000061_000923_000585_002107_002727_008589_022809_000003_017937_163267,
  1_075055_000001_000003_000005_000011_000027_000003_000073_000187_000019_000975_000257_002361_000935_009071_029991_013619_092169_101031,
  1_075078_000001_000001_000005_000013_000017_000053_000105_000157_000343_000673_000237_003231_007311_001593_018521_057889_079805_097847,
  1_075120_000001_000003_000001_000003_000031_000055_000063_000167_000489_000167_000121_003333_002475_001545_013291_000921_101757_062147,
  1_075130_000001_000003_000003_000015_000013_000017_000009_000209_000339_000567_002011_001737_001455_009289_006105_049733_074237_093195,
  1_075159_000001_000001_000007_000011_000003_000013_000077_000115_000305_000327_001005_003381_004269_004835_027221_016301_075173_244603,
  1_075163_000001_000003_000005_000007_000007_000031_000047_000075_000499_000041_000281_000167_003525_008649_023623_004987_002057_204083,
  1_075170_000001_000003_000003_000005_000009_000005_000035_000053_000269_000437_001035_001675_004567_013291_019787_028937_108915_062545,
  1_075193_000001_000003_000001_000005_000015_000059_000057_000181_000321_000001_000791_002149_000591_006691_008759_062861_010815_257331,
  1_075228_000001_000001_000007_000001_000021_000025_000093_000039_000429_000455_000669_001725_007087_011805_022405_013083_088411_225967,
  1_075244_000001_000001_000005_000015_000005_000045_000015_000001_000055_000281_002027_000097_002639_000057_023717_021669_092181_032731,
  1_075249_000001_000003_000007_000003_000007_000003_000067_000201_000445_000577_001011_000793_007763_010823_030309_041565_037263_218909,
  1_075328_000001_000001_000007_000003_000017_000053_000051_000119_000399_000903_001785_001053_004315_002967_017579_064185_055005_012969,
  1_075357_000001_000003_000003_000013_000021_000063_000013_000001_000427_000039_000071_001811_001237_001623_011401_014371_044355_093089,
  1_075373_000001_000001_000005_000001_000017_000039_000039_000105_000187_000691_000251_003957_000931_012149_018299_048819_023061_049179,
  1_075392_000001_000001_000005_000011_000031_000003_000023_000211_000101_000763_000237_003635_000417_004935_014997_003859_022343_153541,
  1_075428_000001_000003_000007_000005_000021_000037_000059_000137_000013_000179_000527_000895_003451_001743_003149_010665_119427_259343,
  1_075438_000001_000003_000005_000003_000007_000037_000103_000173_000453_000327_000131_002453_007795_012585_013947_059161_041845_029527,
  1_075469_000001_000003_000003_000001_000017_000049_000057_000251_000295_000279_001545_003963_000589_009211_032371_014963_116927_197321,
  1_075487_000001_000001_000003_000007_000017_000059_000037_000115_000315_000591_000481_000767_004611_014741_006949_019507_006567_143371,
  1_075494_000001_000001_000005_000003_000019_000053_000121_000229_000355_000909_000339_001645_002747_007045_009085_005799_050997_017981,
  1_075515_000001_000003_000003_000009_000003_000001_000109_000007_000015_000177_000789_003911_006427_008453_022583_012039_124587_123887,
  1_075526_000001_000001_000005_000001_000007_000023_000015_000193_000109_000685_001147_003921_002329_015153_025045_028389_034759_256611,
  1_075532_000001_000001_000003_000003_000023_000027_000055_000043_000485_000541_001617_003761_001051_007525_019941_052699_035421_162939,
  1_075543_000001_000003_000007_000001_000025_000009_000113_000251_000477_001005_000009_003321_005817_000965_018523_029407_053353_205575,
  1_075549_000001_000001_000007_000011_000009_000031_000111_000175_000227_000033_001745_001141_001547_002113_008785_040273_100301_190749,
  1_075559_000001_000001_000005_000011_000019_000049_000045_000197_000457_000223_000091_002769_006331_001161_006609_061905_042257_152117,
  1_075563_000001_000001_000007_000011_000001_000017_000037_000153_000431_000933_000269_001529_001297_015567_000149_041701_059867_093631,
  1_075568_000001_000001_000005_000009_000025_000033_000083_000127_000305_000667_000343_000185_003527_013079_010567_035753_072191_214091,
  1_075598_000001_000003_000007_000001_000001_000007_000075_000241_000185_000081_002043_003081_003563_000385_003055_059421_027081_032521,
  1_075612_000001_000001_000003_000005_000031_000001_000101_000021_000069_000979_000917_000695_005601_012251_015031_018715_116985_053071,
  1_075622_000001_000001_000003_000009_000023_000057_000091_000127_000327_000979_000721_003855_001131_000997_032227_033843_128299_015239,
  1_075640_000001_000003_000007_000013_000023_000001_000087_000105_000259_000939_001935_001983_006619_001611_031901_014745_096641_211945,
  1_075683_000001_000001_000003_000005_000025_000017_000039_000095_000137_000971_000377_002493_000981_000329_025845_044513_100561_057985,
  1_075689_000001_000001_000003_000009_000027_000037_000069_000103_000167_000131_000487_002935_007099_015375_004825_012209_117165_084909,
  1_075690_000001_000003_000001_000015_000027_000019_000115_000239_000247_000243_000083_001535_008095_003953_025721_062983_089045_016783,
  1_075692_000001_000001_000005_000001_000019_000013_000125_000039_000439_000411_000171_000155_005117_015137_019851_000251_037921_097209,
  1_075752_000001_000001_000001_000005_000013_000041_000017_000097_000215_000323_001333_000775_001155_015269_019943_048489_071741_202501,
  1_075766_000001_000003_000005_000003_000001_000031_000055_000125_000069_000437_001649_002791_008027_015509_031575_008491_106953_155215,
  1_075769_000001_000003_000003_000013_000019_000045_000039_000063_000227_000067_002021_001243_006525_007211_006275_039719_074513_006713,
  1_075791_000001_000001_000005_000011_000013_000045_000015_000101_000171_000613_001561_002939_003849_002917_029765_002027_053617_059939,
  1_075794_000001_000001_000005_000009_000027_000021_000119_000019_000441_000759_000703_002985_003007_002087_005207_064403_020273_066181,
  1_075806_000001_000001_000007_000013_000021_000003_000049_000003_000485_000883_001863_001925_000877_010009_024191_058639_107755_106539,
  1_075809_000001_000001_000001_000005_000027_000037_000023_000185_000281_000533_000437_000555_008151_006489_022343_004573_091577_167919,
  1_075819_000001_000001_000007_000015_000003_000061_000103_000221_000223_000703_000133_002923_001027_014643_026413_016523_107223_097185,
  1_075834_000001_000003_000001_000011_000013_000015_000001_000203_000363_000675_000511_003225_001163_000741_016063_008097_095905_148465,
  1_075895_000001_000003_000001_000007_000011_000011_000011_000243_000371_000129_000209_003533_001279_012181_031973_029165_122089_115117,
  1_075908_000001_000003_000001_000005_000025_000017_000031_000045_000215_000809_001443_003245_001005_002903_020783_023041_096577_192063,
  1_075951_000001_000003_000003_000003_000019_000017_000101_000219_000091_000805_000189_000761_004771_011629_007285_021631_021691_047421]

def dirRows18_1_19 : List Nat := [
  1_075960_000001_000003_000007_000001_000031_000011_000071_000149_000303_000793_000035_003109_002769_011593_031839_002053_004541_202997,
  1_075965_000001_000001_000001_000003_000011_000019_000113_000249_000141_000659_001117_002145_002617_001075_025347_012913_027457_222095,
  1_075974_000001_000003_000001_000003_000005_000023_000041_000057_000193_000815_001293_001109_007597_000999_010773_041065_018555_035617,
  1_075978_000001_000001_000003_000001_000031_000011_000127_000099_000163_000293_000299_003415_003761_008781_005327_047631_056411_242787,
  1_075998_000001_000003_000007_000013_000003_000041_000023_000169_000419_000725_001419_002643_005265_000077_024077_018639_078665_205303,
  1_076001_000001_000001_000005_000001_000031_000039_000039_000205_000413_000393_001713_000309_000707_004153_010461_016053_026963_253993,
  1_076007_000001_000003_000007_000005_000023_000037_000125_000087_000199_000631_001935_000551_007047_004585_021257_042345_039365_249393,
  1_076016_000001_000003_000005_000013_000017_000055_000029_000209_000151_000465_000155_000363_003097_004093_009869_023297_033973_115543,
  1_076091_000001_000001_000001_000013_000023_000059_000083_000071_000145_000717_000127_001299_001701_010885_005343_040793_087819_066621,
  1_076119_000001_000003_000003_000009_000019_000037_000023_000011_000269_000603_000871_000851_000837_015303_007595_056481_057819_185065,
  1_076135_000001_000003_000001_000001_000003_000015_000011_000249_000413_000723_001403_003233_002747_010335_007127_063285_029237_191953,
  1_076170_000001_000003_000001_000001_000011_000031_000067_000139_000051_000413_000521_000969_000171_005943_031613_016477_085771_202139,
  1_076189_000001_000003_000007_000005_000005_000021_000109_000025_000463_000873_000493_002673_006409_011199_017195_040623_076821_072509,
  1_076214_000001_000001_000007_000007_000011_000001_000095_000043_000243_000067_001289_003219_002255_004957_017561_040499_048537_108809,
  1_076225_000001_000001_000007_000015_000003_000039_000045_000075_000043_000821_000533_004043_001503_000083_026937_056327_114149_156845,
  1_076235_000001_000003_000001_000001_000031_000021_000059_000001_000077_000147_000137_001827_004123_002791_027859_057921_040569_134753,
  1_076259_000001_000001_000005_000013_000031_000041_000111_000011_000181_000963_000459_002771_006123_004035_001627_002047_109537_033653,
  1_076261_000001_000003_000005_000007_000031_000057_000017_000021_000005_000761_001833_001279_001239_010089_022531_032547_082699_028389,
  1_076262_000001_000003_000005_000013_000011_000039_000011_000061_000299_000753_001067_001347_005189_012859_000681_046309_031873_090333,
  1_076266_000001_000003_000001_000005_000013_000027_000119_000205_000377_000457_000817_003017_000279_001859_030241_052089_061445_176203,
  1_076286_000001_000001_000003_000005_000011_000035_000017_000163_000027_001001_000417_002899_001959_005513_001441_019743_067147_236591,
  1_076289_000001_000003_000005_000013_000015_000039_000053_000179_000447_000675_000933_001261_004415_009845_028459_033497_107375_156855,
  1_076310_000001_000003_000003_000013_000027_000031_000011_000191_000413_001011_002035_003965_002071_005429_016247_007439_015079_225041,
  1_076319_000001_000003_000003_000011_000007_000023_000087_000215_000241_000687_001351_002399_004677_012967_022957_010443_116701_155477,
  1_076364_000001_000003_000007_000005_000025_000055_000005_000197_000359_000879_000619_001969_001513_012743_010953_028343_063685_039115,
  1_076375_000001_000001_000003_000001_000019_000015_000063_000007_000305_000343_001333_003845_000377_014031_028383_004271_060063_011827,
  1_076392_000001_000003_000005_000015_000025_000021_000115_000101_000171_000735_000787_003143_000593_008793_004121_015471_053491_020617,
  1_076422_000001_000001_000005_000015_000015_000051_000103_000017_000433_000611_001351_001729_006147_011623_000003_006319_006133_019029,
  1_076450_000001_000003_000001_000013_000029_000015_000115_000097_000505_000985_000745_000745_001459_007193_001247_058901_114255_212849,
  1_076496_000001_000001_000007_000001_000001_000053_000099_000035_000377_000723_001751_002625_005113_013295_020133_026831_041657_051717,
  1_076521_000001_000003_000005_000015_000015_000039_000017_000227_000351_000435_000049_000203_006959_011673_015755_029733_051445_064619,
  1_076522_000001_000001_000001_000003_000025_000051_000057_000137_000415_000049_000355_002149_007607_010781_030363_043889_055543_036637,
  1_076527_000001_000001_000007_000005_000005_000015_000073_000189_000153_000949_000527_000587_000513_012891_016765_041477_075569_080747,
  1_076536_000001_000001_000005_000005_000009_000005_000003_000225_000115_000125_000821_003551_004833_000927_024331_063669_026549_220159,
  1_076541_000001_000001_000003_000009_000021_000007_000009_000183_000391_000783_000493_002785_003879_008311_009935_060629_119329_005791,
  1_076553_000001_000001_000005_000015_000015_000041_000061_000097_000033_000029_000199_003335_001531_006107_000757_033797_003001_224507,
  1_076568_000001_000001_000003_000009_000013_000039_000025_000247_000407_000001_001129_001453_007091_005557_008657_033961_100763_025099,
  1_076574_000001_000003_000003_000013_000031_000021_000069_000073_000431_000827_000861_000235_002369_004283_027183_029095_099957_097577,
  1_076584_000001_000001_000007_000013_000001_000025_000021_000173_000365_000921_000021_003527_002481_008795_025621_041755_127249_221385,
  1_076604_000001_000001_000001_000005_000025_000025_000065_000203_000305_000373_000527_004033_003483_009403_028669_032083_052273_077037,
  1_076607_000001_000003_000001_000015_000009_000023_000019_000007_000029_000083_001163_001147_005315_002381_021203_033915_109511_040669,
  1_076609_000001_000003_000007_000015_000023_000019_000069_000127_000113_000937_000935_001067_002431_007677_021327_044095_082799_005715,
  1_076669_000001_000001_000005_000005_000007_000037_000107_000223_000433_000515_000393_001721_001977_006383_018835_054841_103263_196997,
  1_076683_000001_000001_000001_000003_000001_000011_000085_000173_000259_000685_000595_001635_006979_004483_008097_042249_056259_105925,
  1_076745_000001_000001_000007_000007_000001_000023_000011_000253_000187_000665_000313_003745_002423_015835_032085_048643_075625_047511,
  1_076753_000001_000001_000003_000005_000001_000059_000127_000083_000501_000387_000977_003515_007921_012329_014757_020287_049699_091237,
  1_076754_000001_000003_000005_000011_000031_000045_000051_000109_000319_000621_001013_003519_004023_012099_028829_026691_083131_261497,
  1_076756_000001_000001_000003_000003_000005_000035_000051_000253_000253_000569_001017_002299_008159_013783_022123_055213_111527_110699,
  1_076760_000001_000003_000007_000003_000009_000005_000059_000129_000041_000845_000723_001607_003047_014323_019277_039447_012465_045925,
  1_076782_000001_000001_000003_000001_000017_000035_000051_000079_000115_000361_000739_002037_006167_014699_028187_065271_067285_048489,
  1_076821_000001_000003_000001_000011_000001_000029_000095_000181_000419_000235_000745_000621_003889_002933_000743_023801_032057_054103,
  1_076828_000001_000003_000001_000011_000017_000047_000043_000055_000007_000695_001653_003983_000961_003037_008669_010039_086571_006981,
  1_076849_000001_000001_000005_000015_000013_000019_000067_000141_000291_000511_001913_000397_007423_006541_021845_049821_126047_218587,
  1_076850_000001_000001_000005_000003_000011_000013_000103_000213_000189_000115_001495_002695_002127_011979_013609_046615_064775_206417,
  1_076870_000001_000003_000001_000005_000005_000009_000057_000207_000253_000251_001155_001319_006699_006613_021757_049703_124879_089987,
  1_076874_000001_000003_000005_000007_000023_000025_000035_000081_000165_000789_000771_000415_005557_008431_012043_044359_009447_229481,
  1_076898_000001_000001_000001_000013_000017_000021_000063_000251_000387_000767_000085_003901_003227_010329_005049_056173_058065_078595,
  1_076903_000001_000003_000001_000015_000023_000005_000045_000007_000123_000389_001041_001223_005865_005365_002915_024861_106893_170769,
  1_076910_000001_000003_000007_000015_000027_000061_000027_000059_000309_000103_000279_001829_001501_011277_004461_034817_060973_099805,
  1_076921_000001_000001_000003_000009_000001_000025_000057_000085_000411_000699_000911_001643_002687_013539_010187_021597_018883_212975,
  1_076968_000001_000001_000003_000007_000005_000007_000081_000209_000225_000321_001867_002189_006315_005393_008859_047471_041677_222455,
  1_077013_000001_000001_000005_000011_000027_000033_000119_000159_000273_000659_000883_003773_006519_015449_017219_023923_033749_225489,
  1_077027_000001_000001_000007_000013_000029_000039_000001_000161_000165_000531_001019_002369_002093_004341_024945_028537_049467_258065,
  1_077042_000001_000003_000003_000003_000015_000059_000023_000143_000377_000943_001329_000977_007025_002167_017973_065087_115757_075959,
  1_077059_000001_000001_000001_000015_000017_000055_000033_000167_000043_000719_000051_003873_003317_010763_000639_058195_020023_100725,
  1_077062_000001_000001_000007_000005_000017_000023_000071_000249_000023_000929_000467_003073_003355_001343_018755_012247_049737_184103,
  1_077074_000001_000003_000003_000015_000001_000009_000017_000193_000157_000265_000983_001825_004805_002131_022117_032937_000057_261867,
  1_077076_000001_000003_000005_000009_000005_000001_000101_000141_000511_000489_000073_001789_001303_002633_000709_011891_044897_191229,
  1_077110_000001_000001_000007_000015_000001_000027_000121_000007_000129_000421_000725_001421_003883_013335_007247_008393_085029_127691,
  1_077113_000001_000001_000003_000009_000019_000053_000121_000115_000085_000909_001535_003261_007063_016381_001719_019847_019041_215433,
  1_077131_000001_000001_000007_000003_000017_000045_000091_000187_000181_000829_000609_000931_005727_003971_014567_015871_009825_184165,
  1_077157_000001_000001_000001_000003_000005_000029_000007_000249_000361_000815_001101_001485_006879_005379_007179_027467_101427_196089,
  1_077158_000001_000001_000005_000007_000023_000011_000027_000175_000237_000747_001911_003107_000961_006649_029887_011003_027561_233841,
  1_077216_000001_000001_000001_000005_000011_000005_000125_000227_000303_000315_001879_000817_007445_001447_009333_054825_118865_216397,
  1_077246_000001_000001_000003_000013_000017_000033_000027_000095_000245_000025_001741_002633_001869_014111_024507_061287_046397_220803,
  1_077258_000001_000001_000007_000007_000025_000005_000041_000101_000171_000333_000497_003417_004921_004553_025487_051529_072873_043525,
  1_077281_000001_000001_000007_000007_000009_000019_000025_000161_000235_000929_001663_003237_000323_003889_031423_002345_063113_212659,
  1_077284_000001_000001_000005_000013_000029_000059_000039_000025_000393_000519_000429_001461_005867_000113_028091_036813_047827_163407,
  1_077294_000001_000003_000005_000013_000015_000049_000085_000161_000083_000389_000765_003349_004659_011007_024749_051121_093511_229885,
  1_077302_000001_000003_000005_000011_000005_000027_000107_000233_000221_000425_000941_001181_005403_004373_032625_041991_002019_245967,
  1_077306_000001_000003_000005_000009_000009_000053_000097_000027_000221_000731_001301_003517_004407_011369_004251_031121_004813_042029,
  1_077315_000001_000001_000001_000009_000017_000059_000107_000247_000231_000123_001177_003299_006163_004855_014547_063171_045201_027711,
  1_077352_000001_000003_000007_000003_000025_000031_000063_000037_000123_000457_001531_003723_004807_014665_017973_042547_005417_170323,
  1_077360_000001_000003_000007_000003_000017_000019_000057_000007_000359_000741_000385_003127_000855_010803_030093_024501_053629_040447,
  1_077365_000001_000003_000007_000015_000011_000045_000049_000125_000445_000795_000113_002425_007085_007337_016297_026447_094369_012371,
  1_077370_000001_000003_000007_000009_000029_000059_000035_000191_000123_000619_000415_001081_002469_004125_025587_007853_119781_009447,
  1_077378_000001_000003_000001_000015_000013_000013_000111_000089_000381_000757_000389_000253_006929_000033_008263_017385_122129_146679,
  1_077380_000001_000001_000003_000003_000015_000035_000101_000095_000479_000577_001645_003781_007533_004665_006561_049897_072413_151383,
  1_077407_000001_000001_000001_000001_000007_000049_000023_000223_000189_000763_000227_002805_008093_000389_011525_030915_091341_210231,
  1_077408_000001_000001_000007_000003_000019_000023_000003_000137_000079_000569_001833_002091_004235_010739_022855_033845_120141_220267,
  1_077414_000001_000003_000007_000003_000011_000043_000085_000063_000419_000681_000365_003017_003603_006413_013515_016003_107949_241261,
  1_077444_000001_000001_000005_000013_000003_000035_000041_000193_000189_000999_001395_002431_002227_007245_023929_016137_014591_054999,
  1_077454_000001_000001_000007_000015_000023_000051_000047_000077_000031_000025_000589_000611_000371_013329_005873_002133_040351_145293,
  1_077481_000001_000001_000007_000015_000017_000019_000053_000155_000309_000573_001059_003557_002445_012205_004497_032061_130293_073859,
  1_077482_000001_000001_000007_000013_000003_000025_000071_000157_000237_000185_001035_001759_001331_013533_025635_000811_054391_091109,
  1_077531_000001_000001_000001_000011_000005_000021_000099_000031_000259_000413_002033_002187_000755_004591_028641_064031_088499_160789,
  1_077544_000001_000003_000007_000013_000029_000033_000013_000157_000097_000981_000329_000081_006351_004171_010925_022733_072521_105477,
  1_077552_000001_000003_000007_000009_000011_000031_000097_000035_000337_000309_000847_003429_002697_003141_019481_043679_011129_205757,
  1_077569_000001_000003_000001_000007_000027_000045_000123_000193_000439_000639_000633_001375_007307_001599_023379_056811_100877_228687,
  1_077579_000001_000003_000007_000001_000029_000043_000103_000131_000103_000933_000143_002431_002221_004565_020841_058611_049163_013673]

def dirRows18_1_20 : List Nat := [
  1_077610_000001_000003_000005_000013_000025_000017_000121_000017_000455_000941_001577_000509_005401_000797_029573_038373_050527_017951,
  1_077612_000001_000001_000001_000013_000025_000021_000077_000253_000199_000871_000935_003919_001687_006653_020345_056969_077989_244767,
  1_077623_000001_000001_000003_000001_000017_000005_000005_000191_000279_000033_000579_000651_000969_006091_011659_001643_017935_085145,
  1_077649_000001_000003_000003_000009_000029_000001_000103_000039_000083_000295_001237_000207_004837_007899_027879_023195_029549_206885,
  1_077650_000001_000003_000005_000001_000009_000055_000115_000037_000225_000447_000943_001133_006203_000949_009973_004309_043969_166795,
  1_077661_000001_000001_000007_000007_000017_000043_000075_000251_000035_000489_001011_000355_004113_002377_013775_034935_084905_252973,
  1_077675_000001_000003_000003_000003_000011_000045_000003_000001_000135_000499_000081_003265_006657_003875_027565_060931_013117_087931,
  1_077686_000001_000001_000003_000001_000009_000001_000077_000069_000137_000241_001613_002607_003307_000171_013551_054529_045937_180411,
  1_077742_000001_000001_000001_000001_000019_000029_000077_000255_000095_000461_000567_001103_002753_010627_019479_043411_128565_029869,
  1_077791_000001_000001_000003_000005_000005_000063_000123_000159_000165_000733_001107_001711_005039_009221_015541_005527_027629_206505,
  1_077792_000001_000003_000001_000003_000007_000045_000073_000063_000413_000693_000433_002281_003981_007719_031473_056939_070391_067467,
  1_077807_000001_000001_000001_000011_000019_000033_000113_000151_000427_000603_001653_002451_005367_012171_014373_033175_062013_209273,
  1_077815_000001_000003_000005_000005_000017_000037_000109_000005_000187_000293_000617_002663_007381_014217_023561_048999_108717_248289,
  1_077842_000001_000001_000005_000001_000009_000027_000035_000127_000355_000479_000281_002081_007303_000259_008893_059141_020927_061611,
  1_077847_000001_000003_000003_000015_000031_000033_000071_000209_000315_000363_000593_001035_008029_012501_002859_054745_039391_153259,
  1_077899_000001_000003_000003_000011_000021_000039_000035_000173_000171_000015_000987_003737_007415_001827_000973_006831_108643_241333,
  1_077901_000001_000003_000007_000009_000017_000037_000127_000243_000153_000195_000113_000309_005301_013619_007927_035385_009501_099241,
  1_077904_000001_000003_000005_000013_000023_000009_000081_000235_000139_000635_000443_002235_002613_002389_018431_008409_002885_254811,
  1_077914_000001_000003_000007_000009_000001_000005_000015_000109_000141_000173_001059_001961_007945_010381_017337_019591_042173_119831,
  1_077925_000001_000003_000001_000013_000019_000007_000111_000111_000345_000327_001147_002293_000049_016213_025309_060537_050421_108467,
  1_077950_000001_000001_000005_000001_000003_000023_000063_000219_000069_000879_001397_003857_001859_001939_004851_026549_086019_007927,
  1_077959_000001_000003_000001_000013_000023_000061_000025_000031_000301_000189_001031_002817_000829_008777_026869_054405_043535_234687,
  1_077994_000001_000001_000001_000009_000011_000031_000013_000139_000077_000567_000949_003415_006955_014973_009565_037911_018395_094167,
  1_078004_000001_000003_000005_000013_000017_000017_000021_000213_000171_000993_001001_000979_005085_003909_011797_048669_073541_048979,
  1_078043_000001_000001_000007_000009_000007_000037_000035_000107_000347_000239_000585_002883_003235_001053_014871_025799_004861_056335,
  1_078052_000001_000001_000003_000005_000019_000007_000091_000139_000325_000921_000863_000209_000845_015943_008281_055103_110193_216091,
  1_078061_000001_000003_000001_000013_000031_000033_000065_000155_000177_000103_001991_000343_006299_003587_030215_064335_114301_220403,
  1_078064_000001_000003_000005_000003_000031_000037_000121_000157_000443_000349_001097_003683_000503_014061_014685_029755_061543_232983,
  1_078084_000001_000003_000003_000011_000017_000059_000029_000161_000381_000791_001647_001077_006369_001095_017279_043141_065003_144609,
  1_078094_000001_000001_000005_000001_000001_000015_000067_000077_000003_000585_001909_001485_003003_000591_004711_010279_075901_226417,
  1_078099_000001_000003_000007_000005_000001_000005_000005_000193_000469_000631_001065_000607_002751_008163_013633_040563_001417_118169,
  1_078129_000001_000001_000007_000009_000025_000025_000109_000027_000157_000495_000225_001385_004315_000995_010591_001629_129939_056765,
  1_078142_000001_000003_000001_000007_000009_000023_000061_000063_000035_000145_001537_001029_004225_001467_010519_032861_000519_053983,
  1_078149_000001_000003_000003_000011_000007_000059_000025_000199_000403_000967_001089_001121_001063_006701_016827_055479_072983_036873,
  1_078153_000001_000001_000001_000013_000009_000027_000019_000023_000395_000229_001837_001231_001737_010475_016743_042369_130331_047255,
  1_078171_000001_000001_000005_000007_000029_000015_000095_000155_000339_000065_000751_002399_005615_002987_016769_057381_113021_041417,
  1_078173_000001_000003_000001_000009_000015_000017_000001_000111_000197_000007_000417_003999_007261_005939_016773_029275_105559_084685,
  1_078174_000001_000003_000003_000013_000019_000031_000103_000001_000037_000269_001257_001397_004293_003019_006503_007727_093943_237313,
  1_078195_000001_000001_000003_000009_000013_000037_000067_000129_000043_000669_001331_001787_008185_000323_018749_013737_086123_154131,
  1_078201_000001_000003_000001_000011_000003_000051_000013_000035_000197_000867_000559_001381_001057_013293_020603_018633_050503_169685,
  1_078202_000001_000003_000001_000011_000009_000035_000007_000051_000499_000885_000353_004095_006491_005917_015053_018363_099593_213089,
  1_078241_000001_000001_000003_000009_000019_000023_000107_000147_000339_000331_001349_002855_003721_013317_026457_000783_093949_196051,
  1_078247_000001_000001_000005_000001_000009_000061_000089_000217_000315_000385_001729_002641_005753_006269_000547_033737_020103_031533,
  1_078274_000001_000003_000005_000013_000013_000061_000003_000191_000057_000683_001227_001255_003651_010687_009049_006529_060783_028639,
  1_078276_000001_000001_000007_000011_000025_000041_000079_000019_000383_000363_001731_001597_001651_015037_022191_051883_041927_082419,
  1_078303_000001_000003_000005_000009_000015_000061_000039_000149_000049_000633_000709_001743_000621_014659_003309_064129_091897_074235,
  1_078307_000001_000003_000007_000015_000005_000059_000007_000197_000111_000885_001737_000855_002807_003817_013759_029989_045105_171689,
  1_078328_000001_000001_000003_000009_000021_000025_000055_000067_000483_000437_000303_000703_006993_001971_004565_056117_006105_254517,
  1_078344_000001_000003_000003_000013_000015_000013_000019_000003_000487_000751_001185_002985_001619_007139_026087_021105_009049_236153,
  1_078362_000001_000001_000005_000007_000015_000055_000051_000231_000085_000953_000713_000659_002021_004271_015961_026873_031141_076635,
  1_078367_000001_000003_000005_000001_000011_000039_000003_000223_000367_000903_000799_000415_007247_009539_014479_037195_059951_181935,
  1_078368_000001_000001_000005_000003_000013_000047_000017_000159_000439_000859_001067_003111_005277_013973_021999_028381_115685_231483,
  1_078409_000001_000001_000007_000015_000017_000021_000069_000131_000193_000479_001075_003271_002057_001295_031235_035027_094145_065419,
  1_078412_000001_000003_000003_000005_000005_000021_000005_000081_000113_000259_000837_000831_005985_006717_012041_040355_050957_111185,
  1_078417_000001_000001_000001_000009_000015_000047_000103_000195_000465_000739_001415_000225_003121_012623_007539_017555_036703_217641,
  1_078430_000001_000003_000001_000003_000031_000017_000091_000153_000221_000217_000525_000981_000281_009869_009713_010669_012049_097615,
  1_078433_000001_000001_000005_000007_000029_000001_000001_000199_000415_000843_000301_000941_004589_013301_005833_041311_074019_078537,
  1_078440_000001_000001_000005_000011_000013_000005_000041_000127_000213_000917_001297_002281_003193_003877_009517_040685_014657_185139,
  1_078451_000001_000001_000001_000007_000021_000045_000087_000033_000425_000487_000643_000271_007087_005979_014795_027575_034541_173251,
  1_078453_000001_000003_000007_000005_000021_000011_000007_000169_000325_000905_000973_002853_007929_008801_001005_060641_045973_081859,
  1_078458_000001_000003_000003_000001_000001_000035_000039_000081_000093_000463_000697_002309_007769_005169_017595_041447_028837_052613,
  1_078467_000001_000001_000007_000001_000001_000023_000037_000017_000137_000873_001657_000681_000503_007887_024463_032453_112727_133347,
  1_078479_000001_000001_000005_000009_000019_000035_000037_000085_000011_000245_000011_000003_006475_005953_000247_049447_032813_243841,
  1_078507_000001_000003_000005_000003_000019_000053_000037_000045_000431_000259_001831_001443_002237_007651_020701_022857_050041_119667,
  1_078518_000001_000001_000007_000001_000005_000037_000113_000069_000389_000369_001251_001989_007613_010669_004233_033379_072465_256861,
  1_078535_000001_000001_000007_000005_000027_000055_000017_000075_000373_000325_001981_001743_007341_000319_028169_003587_066057_169723,
  1_078542_000001_000003_000003_000015_000027_000031_000047_000091_000367_000245_002045_000979_002169_010935_029523_064871_119447_092131,
  1_078549_000001_000003_000007_000015_000009_000011_000093_000061_000249_000107_001883_002547_000375_004195_006451_014533_062529_093557,
  1_078554_000001_000001_000001_000003_000029_000061_000065_000155_000301_001017_000131_001567_003649_003447_027943_052111_009133_088147,
  1_078556_000001_000001_000001_000001_000021_000059_000107_000151_000265_000707_000767_002325_008095_014027_015355_015465_083143_116199,
  1_078583_000001_000003_000001_000015_000023_000051_000031_000025_000439_000357_001563_001091_002135_001327_018427_060965_029215_157351,
  1_078590_000001_000003_000003_000013_000029_000037_000025_000215_000149_000487_000703_001787_003641_008301_008795_013845_095245_169793,
  1_078615_000001_000003_000003_000011_000027_000003_000049_000087_000069_000687_001181_003405_000589_012901_014199_048607_074027_181379,
  1_078635_000001_000003_000005_000013_000009_000015_000033_000229_000135_000769_001005_002435_004831_005493_016745_064379_020253_052661,
  1_078649_000001_000001_000001_000013_000009_000061_000033_000127_000339_000015_000945_000219_004291_006995_029127_061853_040741_170541,
  1_078684_000001_000003_000003_000015_000009_000033_000075_000039_000327_000133_000733_001125_002747_015031_024575_065013_041997_158679,
  1_078691_000001_000001_000003_000009_000003_000009_000063_000083_000493_000175_000249_001977_008177_004067_002131_012467_086185_073417,
  1_078705_000001_000001_000003_000013_000029_000055_000091_000109_000073_000913_001343_002147_000105_008763_007613_055749_004339_061253,
  1_078724_000001_000001_000005_000005_000017_000019_000045_000057_000345_000835_000341_001365_005187_007485_022685_032321_067279_141119,
  1_078755_000001_000001_000003_000011_000009_000047_000011_000231_000241_000681_000255_003663_005547_000997_002445_064413_055349_061785,
  1_078770_000001_000003_000005_000005_000023_000029_000023_000249_000149_001011_000173_000271_000485_001239_000081_059277_096669_210859,
  1_078772_000001_000003_000003_000001_000017_000009_000041_000039_000309_000131_001431_001497_001669_014191_022795_048951_101731_070847,
  1_078818_000001_000001_000003_000015_000001_000011_000037_000079_000023_001023_000585_000127_007817_015009_003897_044601_083039_240457,
  1_078837_000001_000003_000005_000009_000021_000033_000055_000031_000193_000745_001741_003637_007265_008969_011797_033239_029123_126077,
  1_078844_000001_000003_000003_000013_000031_000005_000087_000215_000271_000573_001423_002611_000947_014669_023785_060579_127099_055877,
  1_078849_000001_000003_000001_000013_000005_000053_000103_000085_000237_000457_000739_001201_000133_008589_013471_006707_042257_141989,
  1_078909_000001_000001_000001_000005_000023_000003_000065_000159_000445_000823_000341_001723_006263_009421_016023_019145_052337_229397,
  1_078915_000001_000003_000005_000003_000015_000003_000015_000251_000407_000137_000951_001319_001035_007713_029579_019591_077841_084949,
  1_078941_000001_000001_000007_000015_000019_000025_000063_000141_000511_000011_001027_001209_006627_008127_014879_012965_109973_144501,
  1_078958_000001_000001_000001_000003_000011_000057_000065_000169_000453_000197_001249_002933_003743_001971_019373_032109_073265_046185,
  1_078975_000001_000001_000003_000001_000003_000001_000021_000047_000471_000565_001795_001771_003187_007189_018627_022993_112319_158693,
  1_078979_000001_000001_000005_000007_000005_000025_000127_000113_000031_000609_001273_002799_005713_016091_022239_043617_126003_218991,
  1_078986_000001_000003_000003_000007_000019_000059_000019_000185_000483_000431_000335_000565_000819_002555_018653_036573_050085_031007,
  1_079029_000001_000001_000003_000013_000017_000061_000005_000219_000297_000755_002005_000391_004927_001517_011341_009527_051739_182599,
  1_079030_000001_000003_000007_000009_000009_000003_000039_000211_000475_000717_000189_000819_000529_000469_028559_007321_060213_079505,
  1_079044_000001_000003_000001_000009_000017_000039_000053_000065_000247_000145_000009_001669_007221_008359_011021_029775_024693_208655,
  1_079048_000001_000001_000005_000013_000007_000007_000031_000135_000375_000439_001419_003579_004313_014057_031505_055249_005345_069537,
  1_079056_000001_000003_000005_000009_000021_000003_000125_000223_000009_000073_001693_000281_003941_010377_029365_019807_073973_169113,
  1_079095_000001_000003_000007_000015_000029_000041_000119_000075_000241_000079_001969_001091_006241_010685_011579_003791_124443_005051,
  1_079099_000001_000003_000007_000015_000023_000053_000013_000255_000205_000547_000255_001589_007261_015735_014521_029679_109373_236433]

def dirRows18_1_21 : List Nat := [
  1_079121_000001_000003_000007_000003_000017_000037_000071_000163_000095_000265_000001_003239_001779_009047_031387_032291_086741_055317,
  1_079150_000001_000003_000001_000009_000031_000055_000117_000247_000317_000673_000749_001155_007743_006427_025273_049701_062345_020913,
  1_079196_000001_000003_000003_000007_000027_000055_000035_000111_000069_000799_000213_003011_004359_014763_007387_013281_058397_038415,
  1_079199_000001_000001_000005_000009_000005_000061_000049_000219_000419_000297_001019_002181_006069_012957_024637_023317_006389_240893,
  1_079220_000001_000001_000005_000015_000013_000057_000059_000043_000373_000647_001407_003955_005583_015229_020935_038007_065971_095987,
  1_079229_000001_000001_000007_000007_000023_000017_000077_000091_000449_000075_001059_003337_002041_000261_025077_028161_044537_189443,
  1_079263_000001_000001_000007_000011_000009_000007_000117_000225_000457_000941_000161_001825_001101_000193_032619_037245_102633_086707,
  1_079264_000001_000001_000001_000007_000013_000043_000033_000137_000275_000691_001387_001265_000759_001457_004877_041813_004159_234397,
  1_079296_000001_000003_000003_000001_000009_000023_000071_000039_000205_000175_000953_002965_003283_006025_005905_034691_120987_071841,
  1_079302_000001_000003_000001_000013_000031_000063_000049_000073_000299_000169_001265_002205_001299_010045_006919_026067_056909_042549,
  1_079354_000001_000003_000003_000001_000031_000041_000075_000219_000457_000407_000005_001901_006823_000531_003155_064375_038523_068217,
  1_079387_000001_000001_000007_000009_000007_000035_000123_000193_000145_001021_000757_003775_002313_011885_011649_061071_129363_120467,
  1_079399_000001_000003_000007_000003_000029_000021_000127_000093_000415_000641_000453_000923_007713_009569_005961_025969_031095_093317,
  1_079435_000001_000003_000003_000001_000005_000015_000021_000235_000211_000663_000385_002429_000319_011571_017539_042975_043179_100105,
  1_079525_000001_000003_000007_000007_000025_000057_000051_000215_000393_000167_001569_003235_005555_003391_002389_036485_021919_164479,
  1_079540_000001_000003_000003_000003_000029_000021_000081_000059_000239_000671_000605_000583_002341_002321_028593_019035_010209_036433,
  1_079552_000001_000003_000003_000011_000031_000033_000001_000147_000111_000523_000427_003545_000111_008009_029101_034549_122745_082117,
  1_079562_000001_000003_000005_000015_000019_000037_000097_000141_000387_000523_000467_001657_004161_005505_018091_039597_124423_074827,
  1_079576_000001_000001_000001_000011_000021_000063_000061_000013_000169_000851_001863_003307_007189_010791_022619_024431_127781_014717,
  1_079579_000001_000001_000003_000013_000027_000041_000069_000127_000497_000565_001489_000277_002551_015409_009885_000187_101319_194121,
  1_079605_000001_000001_000007_000007_000017_000045_000001_000139_000347_000503_001189_001459_006117_014319_022153_002915_091991_246679,
  1_079618_000001_000003_000003_000003_000009_000041_000025_000199_000327_000295_000945_002765_000563_011605_024267_037729_080057_169479,
  1_079648_000001_000001_000007_000003_000023_000019_000013_000219_000235_000837_001015_002071_002727_003989_032539_026713_112391_163943,
  1_079654_000001_000003_000003_000009_000021_000027_000017_000187_000315_000753_000817_003053_005961_000973_023973_037621_105637_247711,
  1_079666_000001_000001_000007_000001_000011_000015_000045_000025_000421_000213_000663_003829_000469_015889_028773_014323_107705_111729,
  1_079686_000001_000001_000001_000007_000007_000007_000051_000189_000457_000095_001903_000639_001933_007409_022327_018959_042679_158987,
  1_079697_000001_000001_000005_000009_000013_000013_000049_000159_000387_000365_001799_002399_006375_014965_032495_005383_073479_005653,
  1_079700_000001_000001_000003_000001_000029_000023_000081_000073_000183_000563_000435_000133_005731_006663_021219_060007_101215_068775,
  1_079723_000001_000001_000007_000011_000031_000047_000043_000159_000221_000745_001317_002405_004563_004073_027675_014225_114231_222553,
  1_079749_000001_000001_000001_000005_000011_000063_000105_000099_000413_000081_000771_000547_001633_008097_030431_031417_101379_163575,
  1_079750_000001_000001_000003_000009_000023_000029_000123_000149_000241_000267_001925_000467_007743_004473_012223_010521_086265_089949,
  1_079764_000001_000003_000005_000001_000031_000029_000111_000067_000311_000851_001919_002563_003725_004035_007241_013859_105207_200599,
  1_079771_000001_000003_000007_000003_000019_000053_000113_000107_000133_000243_002021_002669_004633_014393_024827_001233_081471_020105,
  1_079774_000001_000001_000001_000005_000003_000023_000043_000149_000157_000875_001175_000963_006189_007343_013913_041375_112857_236047,
  1_079780_000001_000003_000005_000015_000011_000031_000043_000225_000469_000229_000703_003033_002341_010309_012057_013325_109019_130789,
  1_079789_000001_000001_000001_000007_000027_000047_000045_000049_000371_000971_001121_002179_001267_009499_010771_028781_077059_090765,
  1_079798_000001_000001_000007_000001_000017_000027_000059_000169_000269_000217_000983_001365_001985_012287_005385_046407_024827_155761,
  1_079821_000001_000001_000007_000011_000009_000005_000019_000205_000159_000937_000763_003823_003625_014209_032031_058879_118449_050723,
  1_079850_000001_000001_000005_000003_000025_000055_000027_000035_000125_000999_001541_003883_000539_005691_018071_063199_112089_194825,
  1_079864_000001_000003_000003_000001_000027_000043_000057_000225_000173_000673_001339_003433_005743_001375_032429_035071_098035_229973,
  1_079898_000001_000003_000003_000009_000003_000051_000005_000203_000439_000041_000529_000863_006735_013211_007075_055637_024481_046673,
  1_079904_000001_000001_000005_000011_000015_000023_000093_000007_000181_000843_000777_001299_001941_007147_026253_010967_005387_084611,
  1_079934_000001_000003_000001_000007_000009_000057_000127_000155_000257_000423_001421_000261_004477_011169_022997_012371_008705_135883,
  1_079936_000001_000003_000001_000009_000017_000009_000015_000209_000427_000889_001939_003623_002587_004037_032233_040391_032529_063851,
  1_079942_000001_000003_000003_000013_000003_000019_000049_000155_000213_000239_000817_001787_002999_009955_020155_044711_041367_059623,
  1_079945_000001_000003_000007_000005_000005_000039_000103_000181_000405_000085_001997_003639_001259_010737_000189_044377_023589_089371,
  1_079963_000001_000003_000005_000011_000015_000013_000057_000081_000203_000773_001571_003235_006625_013803_002091_064265_131013_189705,
  1_079987_000001_000001_000001_000013_000015_000003_000113_000159_000149_000055_000355_002345_005043_004067_023277_032647_043755_005445,
  1_080057_000001_000003_000003_000009_000031_000007_000067_000177_000423_000269_001731_003957_004383_013483_014653_008243_057689_037375,
  1_080077_000001_000001_000003_000005_000025_000005_000077_000199_000161_000859_000497_001679_006809_004877_001107_016443_015505_138155,
  1_080078_000001_000003_000005_000001_000011_000057_000007_000049_000145_000569_000571_002679_007531_014517_012425_006285_116961_116397,
  1_080080_000001_000001_000007_000011_000001_000037_000065_000043_000151_000419_000801_003231_005321_010725_012885_062771_016507_179009,
  1_080102_000001_000001_000005_000011_000029_000055_000089_000081_000325_000047_001037_003235_002017_010875_008919_025115_118035_178227,
  1_080106_000001_000003_000001_000007_000001_000043_000101_000025_000449_000617_000381_003437_006655_001291_018693_053939_099143_195695,
  1_080111_000001_000003_000001_000005_000023_000007_000047_000159_000295_000939_000173_003087_001497_006353_013893_013465_118973_193737,
  1_080152_000001_000001_000003_000009_000003_000041_000065_000079_000449_000345_002039_001193_005915_013689_001257_023273_048515_256793,
  1_080155_000001_000003_000005_000011_000011_000055_000013_000117_000343_000899_001853_000373_006885_012863_001209_034433_048215_218187,
  1_080173_000001_000003_000007_000007_000003_000045_000103_000145_000055_000507_000743_004027_002075_015707_004473_050077_064551_204305,
  1_080186_000001_000001_000003_000005_000031_000045_000123_000233_000363_001003_000411_001459_006455_000985_029451_017625_044153_137097,
  1_080203_000001_000003_000003_000001_000027_000011_000053_000251_000041_000043_000495_000107_006145_008785_028997_007181_092903_105785,
  1_080223_000001_000001_000003_000011_000013_000005_000117_000141_000463_000639_001857_002873_003627_006081_018207_029451_080909_073557,
  1_080233_000001_000001_000001_000003_000029_000051_000015_000081_000085_000487_000307_002481_002769_014901_009407_058321_052813_230393,
  1_080258_000001_000003_000003_000011_000031_000007_000107_000043_000205_000811_001121_002757_002447_006843_021347_009143_041003_080507,
  1_080281_000001_000001_000001_000001_000029_000019_000013_000203_000047_000689_002003_001477_007857_005031_021781_005745_003649_160389,
  1_080318_000001_000003_000003_000007_000021_000021_000065_000003_000351_000157_000167_003425_002395_009165_026143_057221_127171_054461,
  1_080326_000001_000003_000001_000015_000013_000013_000065_000053_000305_000719_000181_000709_005485_013385_030287_052669_082647_083851,
  1_080330_000001_000001_000003_000011_000011_000023_000031_000109_000205_000123_000509_003831_007771_007341_031613_028035_038061_049375,
  1_080337_000001_000003_000003_000003_000015_000033_000047_000159_000321_000589_000393_003253_003743_006161_000445_033129_008181_027793,
  1_080344_000001_000001_000001_000013_000009_000057_000111_000253_000203_000539_000673_000855_001937_002699_025795_006889_013531_063561,
  1_080365_000001_000001_000001_000013_000031_000045_000013_000101_000113_000903_001699_002423_007967_007957_020303_064395_124447_033947,
  1_080383_000001_000003_000005_000011_000017_000039_000059_000181_000421_000535_001445_003927_005433_012885_012497_047231_039819_046371,
  1_080389_000001_000003_000005_000007_000027_000003_000075_000049_000461_000781_000433_001767_006903_011907_002063_055199_082823_229405,
  1_080413_000001_000003_000003_000015_000017_000061_000017_000023_000247_000683_000033_004027_000341_008069_002529_009757_095653_012927,
  1_080441_000001_000003_000003_000011_000017_000007_000029_000205_000353_000917_000219_003509_007803_005939_025111_045357_009259_001549,
  1_080449_000001_000003_000003_000015_000021_000007_000023_000025_000459_000291_000031_002091_001177_009311_012231_016617_033575_252643,
  1_080461_000001_000003_000005_000005_000003_000051_000113_000123_000453_000503_001575_002785_005011_001789_000819_030857_012955_172421,
  1_080467_000001_000001_000005_000003_000015_000015_000125_000065_000113_000281_000053_003417_005279_006351_025931_054835_124077_204241,
  1_080476_000001_000001_000003_000009_000029_000031_000019_000179_000275_000933_000711_003351_006221_001711_009375_011645_118911_249395,
  1_080507_000001_000003_000007_000013_000023_000059_000043_000061_000085_000267_000691_003949_002135_003203_021455_061895_071157_136739,
  1_080516_000001_000001_000007_000005_000019_000027_000069_000141_000009_000633_000095_003789_007823_012635_027661_030285_129469_067163,
  1_080519_000001_000003_000003_000009_000011_000025_000103_000047_000425_000809_001279_000411_000219_006703_024145_017303_056835_084879,
  1_080568_000001_000001_000005_000013_000029_000041_000047_000133_000197_000615_000169_002157_001795_004945_031693_057763_039369_083353,
  1_080571_000001_000003_000001_000003_000027_000023_000023_000213_000387_000239_000977_000221_000383_011005_007221_008795_100963_163777,
  1_080579_000001_000001_000001_000001_000031_000029_000087_000093_000239_000399_000801_003143_006973_016331_016865_001823_001127_041983,
  1_080586_000001_000001_000003_000013_000007_000039_000025_000251_000277_000417_000119_003033_006785_009783_001641_060169_025047_182263,
  1_080599_000001_000001_000005_000005_000007_000035_000017_000047_000295_000861_001671_001971_004583_003925_031013_050039_125191_143019,
  1_080610_000001_000001_000005_000001_000003_000057_000011_000023_000273_000209_000617_001499_000665_001193_007539_001625_048065_082843,
  1_080629_000001_000001_000003_000015_000015_000017_000039_000145_000193_000503_001305_002071_000093_011529_014267_014779_049327_051347,
  1_080642_000001_000003_000005_000003_000007_000039_000063_000171_000263_000493_000383_003209_004277_006259_001345_048013_110571_127865,
  1_080690_000001_000003_000001_000007_000015_000029_000093_000075_000037_000235_001095_000153_000745_009785_028831_058899_067091_034743,
  1_080713_000001_000003_000007_000009_000027_000023_000067_000085_000491_000447_001899_000709_000555_013979_012529_038383_016091_117301,
  1_080716_000001_000001_000005_000003_000009_000055_000109_000173_000029_000019_001265_002391_007761_001953_005643_024079_014187_127017,
  1_080737_000001_000003_000007_000013_000021_000057_000105_000145_000073_000421_000403_000005_003523_007005_001109_063357_111671_191857,
  1_080743_000001_000001_000007_000013_000005_000027_000021_000005_000199_000515_000917_000365_002775_012453_026989_060593_098977_161759,
  1_080750_000001_000003_000001_000013_000015_000037_000071_000065_000027_000533_001311_002981_001945_007183_005337_020659_067355_185633,
  1_080786_000001_000001_000005_000007_000021_000039_000021_000195_000443_000979_001033_001823_003045_003023_031783_061803_001023_119291,
  1_080811_000001_000001_000003_000011_000005_000015_000107_000155_000465_000249_001845_000357_002769_003313_012335_016615_020809_103469,
  1_080834_000001_000001_000003_000009_000013_000021_000011_000227_000173_000949_001255_003257_000601_010865_012779_009173_087255_012867,
  1_080839_000001_000003_000003_000015_000003_000041_000097_000141_000385_000023_001253_002905_001523_007647_007069_061143_101245_059747,
  1_080840_000001_000003_000001_000003_000007_000035_000117_000093_000357_000741_001673_003295_006809_000547_022949_042151_091241_016189]

def dirRows18_1_22 : List Nat := [
  1_080846_000001_000003_000005_000009_000025_000031_000027_000221_000055_000595_001513_003963_003143_001189_019843_006361_019575_231765,
  1_080848_000001_000001_000005_000001_000003_000035_000091_000217_000385_000717_000057_001471_003529_000859_015259_004411_054491_079841,
  1_080876_000001_000001_000005_000009_000029_000047_000111_000089_000469_000975_000513_001339_001747_008839_030375_046217_128191_095831,
  1_080911_000001_000001_000005_000013_000009_000045_000003_000221_000223_000461_001353_003953_005505_003139_003407_012953_074487_209401,
  1_080947_000001_000001_000007_000007_000007_000043_000033_000143_000427_000183_000573_002881_007355_010693_012841_014267_061847_047689,
  1_081001_000001_000001_000003_000005_000023_000045_000053_000173_000347_000715_000173_003385_000429_008143_002831_057883_077245_037613,
  1_081031_000001_000001_000001_000013_000021_000047_000033_000157_000171_000047_001981_002003_007401_007687_010553_038083_111901_030251,
  1_081045_000001_000001_000005_000009_000023_000035_000121_000251_000007_000835_001561_001605_007023_015645_014313_006361_107973_211667,
  1_081056_000001_000003_000001_000013_000025_000039_000081_000031_000145_000483_001587_003457_005293_000927_003529_022457_069689_190371,
  1_081073_000001_000001_000001_000003_000025_000061_000087_000111_000441_000829_000313_002271_000205_010187_003003_047237_099899_200553,
  1_081083_000001_000001_000007_000013_000031_000051_000009_000243_000219_000139_001703_002001_000959_011265_027897_009081_004473_107737,
  1_081145_000001_000003_000005_000001_000025_000037_000061_000131_000487_000035_001293_000833_003847_011315_011811_002763_002199_081127,
  1_081168_000001_000003_000007_000007_000031_000033_000087_000111_000429_000809_000173_001093_007719_014307_005735_061019_021223_026361,
  1_081177_000001_000001_000003_000011_000017_000033_000031_000017_000049_000885_001279_002243_003693_000061_030909_035807_014027_159225,
  1_081207_000001_000003_000007_000011_000009_000035_000061_000075_000171_000117_001285_000935_007271_003509_014119_031065_058181_136623,
  1_081208_000001_000001_000003_000015_000003_000043_000093_000221_000239_000783_000037_004007_003637_010461_018425_059629_093781_252689,
  1_081226_000001_000003_000005_000007_000005_000061_000019_000107_000123_000417_001655_002307_008177_013617_017195_031597_066241_107199,
  1_081245_000001_000003_000007_000007_000005_000005_000025_000069_000383_000217_000993_002719_003425_008395_001125_010763_080111_070421,
  1_081269_000001_000001_000003_000009_000029_000045_000123_000045_000089_001015_001703_004049_004969_003801_023657_041031_066415_034063,
  1_081285_000001_000001_000003_000003_000007_000053_000125_000063_000067_000335_001937_001793_004641_007115_010951_045503_054723_177433,
  1_081289_000001_000003_000005_000001_000021_000055_000083_000199_000509_000331_000695_002133_001881_014369_021687_002343_085895_099255,
  1_081292_000001_000001_000005_000009_000011_000005_000111_000097_000433_000851_001537_000411_006629_005185_030749_050017_046177_213347,
  1_081298_000001_000003_000003_000001_000007_000021_000095_000229_000311_000605_001277_002435_005053_003051_015447_035479_002835_204149,
  1_081310_000001_000003_000005_000009_000031_000027_000079_000201_000329_000735_001933_000027_006201_009375_024801_034045_016227_061013,
  1_081346_000001_000001_000005_000005_000031_000007_000073_000197_000455_000835_001845_002733_003371_000513_010495_043659_004621_068969,
  1_081348_000001_000001_000001_000015_000021_000055_000015_000083_000419_000471_001427_000919_007125_007635_025579_019493_037381_191563,
  1_081355_000001_000001_000007_000003_000015_000035_000025_000073_000295_000507_000719_003307_004253_000945_021005_024903_080287_048885,
  1_081388_000001_000003_000007_000015_000027_000013_000071_000079_000189_000491_001185_003007_004285_013005_018973_033759_015327_045595,
  1_081396_000001_000003_000003_000009_000009_000033_000115_000103_000031_000949_001817_002865_001215_009611_016019_007925_072945_208301,
  1_081415_000001_000001_000001_000005_000019_000035_000089_000181_000409_000641_001277_002201_002825_005707_013463_034741_039303_217803,
  1_081460_000001_000001_000003_000011_000013_000031_000065_000191_000011_000179_000509_002513_003861_013323_011817_024901_053815_044343,
  1_081482_000001_000003_000001_000005_000005_000057_000097_000025_000083_000177_001963_002367_006703_013361_008749_045533_087883_002977,
  1_081518_000001_000003_000005_000003_000015_000041_000113_000145_000039_000509_000081_001387_002881_001441_000075_028409_061417_079393,
  1_081523_000001_000003_000003_000003_000017_000001_000041_000019_000173_000133_002033_003637_007415_001841_019497_042643_122885_195301,
  1_081529_000001_000003_000003_000009_000015_000037_000011_000087_000291_000881_001471_002469_006877_006813_008273_001455_030957_181887,
  1_081545_000001_000003_000005_000009_000025_000041_000007_000071_000451_000831_000495_003991_004173_004307_031249_007253_057141_035495,
  1_081570_000001_000001_000007_000009_000015_000039_000029_000193_000327_000837_000991_003503_001175_014965_018151_022479_051127_159019,
  1_081576_000001_000003_000001_000009_000023_000041_000089_000211_000179_000507_001005_000613_008083_015655_001927_023401_051025_021589,
  1_081604_000001_000001_000005_000015_000005_000063_000105_000229_000239_000399_000591_002233_000391_002871_029829_049961_062045_190437,
  1_081613_000001_000003_000005_000009_000007_000023_000085_000219_000163_000037_001881_000589_004239_012845_019993_057267_029519_207597,
  1_081631_000001_000003_000007_000015_000019_000019_000115_000141_000041_000405_000657_002517_004231_010247_021383_011479_052955_121545,
  1_081656_000001_000003_000001_000007_000023_000033_000065_000229_000287_000739_001265_001105_000487_003801_005211_044731_005359_103685,
  1_081679_000001_000003_000001_000013_000023_000029_000101_000153_000395_000335_000899_000303_002073_015767_001303_015539_012889_035517,
  1_081684_000001_000001_000005_000011_000005_000063_000041_000053_000099_000339_000563_002921_004959_013941_013655_010115_056867_042919,
  1_081698_000001_000003_000005_000005_000005_000035_000127_000225_000497_000027_000139_003269_003929_003369_022697_019421_002921_171927,
  1_081736_000001_000001_000001_000015_000015_000021_000035_000251_000067_000447_001045_001173_002951_006589_027261_036597_098721_007205,
  1_081747_000001_000003_000003_000009_000011_000063_000083_000019_000163_000381_000087_001211_003007_004971_027105_002341_021389_032995,
  1_081765_000001_000001_000003_000003_000021_000019_000063_000065_000505_000987_001821_002419_003195_002573_001481_035279_045135_000597,
  1_081775_000001_000003_000001_000015_000029_000005_000077_000065_000121_000223_002009_000593_007929_010353_022301_025137_040289_095847,
  1_081805_000001_000001_000003_000001_000017_000049_000009_000167_000069_000729_001189_001191_000001_012603_008281_045193_001427_015887,
  1_081842_000001_000001_000003_000007_000017_000005_000011_000217_000505_000317_000505_001201_008025_013255_012591_016207_032387_242425,
  1_081859_000001_000003_000007_000009_000025_000009_000097_000023_000091_000765_000653_002689_002787_011719_008455_024665_026907_078525,
  1_081865_000001_000003_000003_000015_000027_000019_000079_000157_000117_000715_001921_002453_000499_013593_014173_001993_110087_151427,
  1_081866_000001_000003_000001_000013_000005_000043_000059_000021_000451_000863_000533_001723_002059_001611_010403_036479_036999_109553,
  1_081892_000001_000003_000007_000007_000029_000063_000051_000005_000475_000549_000123_001949_005279_008581_020053_052287_125223_152299,
  1_081902_000001_000003_000001_000001_000007_000019_000001_000215_000273_000157_001557_000425_007549_012337_001735_030917_116487_177335,
  1_081933_000001_000001_000001_000001_000007_000047_000061_000191_000073_000551_001435_002283_003191_008545_011875_041389_017607_026869,
  1_081934_000001_000001_000007_000009_000013_000061_000109_000121_000365_000223_001729_003311_007249_010765_012419_004235_064127_132257,
  1_081942_000001_000001_000003_000013_000017_000025_000065_000049_000417_000311_000141_001127_000053_000945_028277_033347_096399_166049,
  1_081969_000001_000003_000007_000009_000005_000021_000093_000203_000467_000805_000115_001757_004535_008687_010423_008065_002955_020403,
  1_081981_000001_000003_000003_000015_000007_000063_000103_000137_000227_000111_000735_002139_004293_005347_004131_063405_042599_173299,
  1_081999_000001_000003_000007_000007_000017_000053_000127_000251_000057_000625_000843_003045_001319_010085_018591_036115_104193_183891,
  1_082004_000001_000003_000007_000001_000031_000057_000107_000253_000207_000739_001703_001377_003807_010289_022969_013087_002805_261279,
  1_082008_000001_000001_000005_000005_000005_000059_000059_000063_000077_000663_001109_002159_003725_012355_004805_022433_081851_009419,
  1_082032_000001_000001_000007_000015_000001_000001_000101_000101_000295_000311_000447_003931_000933_015713_008919_007185_038577_254203,
  1_082035_000001_000001_000005_000015_000007_000035_000035_000141_000283_000665_001685_003875_000495_001655_008269_023493_001523_248783,
  1_082060_000001_000001_000005_000009_000027_000035_000025_000057_000285_000469_001491_001479_003705_011357_005319_011575_116207_215961,
  1_082063_000001_000003_000005_000011_000007_000041_000067_000161_000073_000777_000247_000823_006677_001631_003431_002821_025291_017633,
  1_082071_000001_000001_000003_000009_000019_000017_000045_000181_000139_000085_000857_001231_007167_002951_026847_039113_051705_104617,
  1_082081_000001_000003_000005_000001_000005_000055_000101_000209_000001_000047_001059_002175_001549_008007_011267_021863_125567_102775,
  1_082082_000001_000003_000003_000015_000015_000021_000079_000085_000427_000963_001335_002129_006831_006613_013319_015781_003781_222547,
  1_082105_000001_000003_000003_000013_000019_000063_000025_000123_000001_000215_000139_001345_005035_003107_014381_006239_018481_202581,
  1_082106_000001_000001_000005_000001_000011_000011_000011_000053_000109_000533_001113_000177_000609_015391_022735_062229_103591_089143,
  1_082120_000001_000001_000005_000015_000003_000021_000115_000223_000167_000441_000277_002971_000933_002841_026893_048513_074553_250413,
  1_082125_000001_000001_000001_000007_000019_000017_000043_000181_000483_000897_000819_001657_005539_008847_023483_057605_104703_242559,
  1_082156_000001_000003_000005_000011_000003_000063_000003_000129_000045_000981_000045_000845_001481_014735_030451_016937_013789_027107,
  1_082176_000001_000003_000003_000015_000025_000011_000033_000049_000155_000947_000521_003417_003299_001123_009517_032127_117795_223167,
  1_082203_000001_000003_000005_000015_000003_000035_000027_000037_000287_000541_000727_002779_007033_005189_021579_036895_109645_123353,
  1_082210_000001_000003_000007_000009_000015_000053_000123_000125_000405_000841_000119_000063_000853_008693_001537_025509_049345_054301,
  1_082241_000001_000003_000007_000009_000011_000063_000065_000145_000283_000529_001553_000883_003319_008601_029379_026991_127343_098701,
  1_082287_000001_000001_000001_000007_000023_000059_000011_000089_000407_000869_000445_000659_003029_005465_005063_036775_069089_205367,
  1_082323_000001_000003_000007_000005_000019_000035_000099_000049_000257_000287_001113_002825_002797_007283_031757_047015_106987_082589,
  1_082330_000001_000003_000007_000011_000015_000037_000041_000101_000493_000725_001091_000503_002611_013025_011071_039311_005193_092127,
  1_082366_000001_000001_000003_000007_000009_000059_000069_000113_000381_000341_001495_003169_005099_000069_007911_009721_084609_254171,
  1_082378_000001_000003_000005_000007_000021_000019_000075_000071_000007_000617_001185_002787_004147_016045_018859_052347_066551_161563,
  1_082395_000001_000003_000005_000003_000027_000039_000017_000205_000425_000003_001443_001947_007645_010125_024577_045373_038015_030407,
  1_082398_000001_000003_000003_000011_000001_000057_000105_000251_000065_000389_001993_003933_003093_001425_009483_005953_013147_234121,
  1_082401_000001_000003_000003_000003_000001_000027_000105_000045_000435_000393_000609_000291_000545_004905_022621_062115_078955_084355,
  1_082404_000001_000003_000007_000009_000001_000015_000091_000183_000301_000223_001183_001877_002141_005549_000371_044147_006771_136777,
  1_082419_000001_000001_000005_000015_000005_000049_000127_000161_000121_000979_001247_003681_003805_003363_011643_025735_021193_111657,
  1_082421_000001_000003_000005_000015_000015_000033_000047_000091_000137_000323_001577_003723_003609_011533_004415_026467_120947_200919,
  1_082428_000001_000003_000003_000003_000003_000033_000121_000161_000453_000205_001815_000065_005893_004669_014377_010905_009559_056359,
  1_082442_000001_000001_000001_000007_000001_000055_000021_000143_000411_000065_001009_002989_000133_007059_030981_015417_002651_110345,
  1_082452_000001_000001_000003_000007_000019_000025_000091_000241_000193_000903_000661_000665_007681_014111_029197_051299_109519_155827,
  1_082455_000001_000001_000001_000015_000025_000003_000079_000057_000417_000073_000705_000007_004415_007699_028185_053005_088547_007281,
  1_082466_000001_000001_000007_000013_000027_000021_000035_000197_000065_000171_001773_000393_003759_008335_005987_020611_091373_080715,
  1_082510_000001_000003_000007_000003_000017_000051_000085_000229_000131_000733_000281_003157_001283_010751_020203_049955_023861_128517,
  1_082524_000001_000001_000005_000015_000003_000027_000035_000087_000391_000509_001627_000769_000701_004933_024597_009695_111441_198493,
  1_082545_000001_000001_000001_000015_000003_000031_000073_000235_000341_000263_000883_002369_004887_004659_009493_006763_130625_015031,
  1_082555_000001_000003_000001_000015_000001_000011_000063_000079_000389_000355_000619_001361_000313_001199_000555_042213_081089_170863]

def dirRows18_1_23 : List Nat := [
  1_082581_000001_000003_000001_000015_000021_000027_000001_000179_000019_000241_001655_001803_005413_005353_000065_031211_003501_027205,
  1_082588_000001_000003_000003_000009_000009_000019_000063_000191_000217_000271_001453_002777_002915_013291_031391_037489_086435_022857,
  1_082591_000001_000003_000005_000009_000013_000041_000085_000011_000333_000479_000363_002591_000697_008587_003647_005741_021627_244573,
  1_082636_000001_000001_000003_000001_000005_000061_000083_000229_000193_000977_000677_002585_003273_012035_002621_012943_049293_037985,
  1_082658_000001_000001_000005_000007_000027_000009_000069_000189_000489_000747_000519_000719_001493_013337_014933_044359_011471_057245,
  1_082675_000001_000003_000005_000001_000005_000017_000075_000089_000417_000367_000057_001641_001573_001819_031237_005213_078821_149853,
  1_082678_000001_000001_000007_000003_000007_000017_000121_000091_000211_000101_001145_003753_002997_000067_010755_011261_122489_061679,
  1_082716_000001_000003_000007_000007_000015_000017_000073_000133_000429_000285_000201_001917_005677_001793_021653_049729_068965_005347,
  1_082725_000001_000003_000003_000013_000023_000017_000049_000249_000071_000169_000619_000843_002163_000585_023309_039509_068087_232233,
  1_082743_000001_000001_000007_000015_000023_000015_000019_000227_000089_000719_001247_002521_001509_007553_012225_012865_100107_261847,
  1_082744_000001_000001_000005_000003_000023_000017_000117_000005_000401_000057_001945_001081_001269_005921_031815_042341_112099_130047,
  1_082762_000001_000001_000001_000001_000009_000005_000087_000203_000211_001009_000403_001617_003969_002541_007261_006989_016579_206159,
  1_082770_000001_000003_000007_000009_000005_000013_000093_000191_000079_000631_001019_003639_007137_013859_019603_063263_082947_181023,
  1_082809_000001_000001_000005_000011_000025_000017_000085_000051_000061_000311_000517_002001_006325_006831_010835_020101_115241_015815,
  1_082846_000001_000003_000007_000013_000029_000019_000033_000115_000473_000477_000471_000773_004097_011697_030781_020843_027089_181927,
  1_082855_000001_000003_000005_000005_000021_000027_000003_000239_000045_000335_000505_000149_003005_003511_018037_031291_006145_002913,
  1_082882_000001_000001_000003_000001_000025_000049_000021_000225_000027_000395_000415_001813_005727_007211_009887_063533_099185_119269,
  1_082899_000001_000003_000003_000005_000015_000053_000127_000195_000081_000895_000587_000561_005951_009901_018117_037855_019393_259031,
  1_082905_000001_000001_000007_000013_000009_000049_000109_000127_000053_000735_000391_001523_003759_010363_011299_003203_089121_122643,
  1_082950_000001_000001_000005_000003_000013_000003_000021_000247_000259_000557_000977_001465_006889_003879_004627_001439_122809_248941,
  1_082953_000001_000003_000007_000015_000007_000019_000113_000251_000245_000063_000267_001873_006601_016253_024643_007433_130051_233047,
  1_082967_000001_000001_000003_000009_000029_000039_000047_000031_000493_000817_001697_002139_001059_011365_031653_056477_119191_045509,
  1_082971_000001_000001_000001_000015_000009_000029_000099_000061_000109_000341_001009_001551_000897_013075_010603_025153_065911_228213,
  1_082987_000001_000003_000007_000007_000029_000047_000057_000085_000263_000767_001633_002473_000199_000049_022287_033345_118877_248435,
  1_083007_000001_000003_000001_000009_000005_000045_000005_000179_000009_000129_001231_004075_007497_002159_018101_031039_095213_171913,
  1_083009_000001_000001_000001_000013_000023_000001_000089_000063_000021_000983_000481_000773_005957_004823_004483_050405_042979_243567,
  1_083012_000001_000001_000005_000013_000015_000021_000065_000133_000347_000511_001887_000743_007825_001681_004857_049247_021277_212995,
  1_083030_000001_000003_000007_000009_000007_000051_000003_000233_000287_000727_000815_003609_000397_005721_016473_007549_100455_136233,
  1_083045_000001_000003_000001_000001_000031_000051_000059_000037_000079_000623_001219_002655_004619_011967_011377_028985_016069_188773,
  1_083050_000001_000003_000003_000013_000013_000059_000093_000159_000197_000339_001633_001601_000255_001631_004989_012019_023921_261273,
  1_083052_000001_000001_000003_000013_000027_000025_000055_000043_000147_000981_000065_000725_005753_000115_026125_025501_089099_233419,
  1_083070_000001_000003_000007_000005_000025_000003_000095_000135_000191_000417_000929_003855_005829_003827_013979_065367_063683_085911,
  1_083076_000001_000003_000005_000001_000007_000063_000045_000187_000355_000735_001325_001461_003869_002127_018231_045891_024027_202997,
  1_083086_000001_000003_000007_000013_000019_000047_000089_000229_000253_000659_000355_003323_004081_008243_032553_046579_046431_053291,
  1_083128_000001_000001_000005_000011_000003_000061_000033_000065_000239_000779_000665_001337_006427_012787_001495_027105_071455_089715,
  1_083141_000001_000003_000001_000011_000031_000033_000115_000069_000511_000187_000099_001055_001065_009531_029897_023897_080581_166957,
  1_083153_000001_000001_000007_000013_000019_000001_000013_000241_000089_000761_000425_003865_000961_014999_024175_019103_039095_038899,
  1_083156_000001_000003_000007_000007_000011_000017_000025_000217_000113_000615_001455_001409_005679_002321_028687_008089_074031_230559,
  1_083194_000001_000003_000007_000001_000025_000015_000077_000111_000405_000523_000961_000647_003857_014355_027063_048829_087913_254965,
  1_083225_000001_000001_000003_000003_000005_000013_000067_000155_000393_000943_001875_001209_003765_008627_015123_043405_078473_146127,
  1_083261_000001_000001_000003_000007_000029_000043_000023_000033_000035_000883_001859_001559_004163_013277_016971_015289_060305_056743,
  1_083264_000001_000001_000001_000005_000019_000055_000037_000053_000123_000035_001477_001035_004683_000259_020079_037041_048081_198685,
  1_083322_000001_000001_000003_000003_000001_000019_000027_000129_000427_000685_000959_002501_002761_009495_023649_018789_054521_219547,
  1_083382_000001_000001_000007_000001_000031_000011_000065_000171_000229_000011_001825_001641_002731_011085_002567_030831_020365_242731,
  1_083391_000001_000001_000001_000013_000013_000005_000021_000175_000265_000271_000133_000407_003415_005943_015385_012817_106159_041859,
  1_083399_000001_000003_000007_000001_000011_000045_000105_000229_000395_000877_001495_002113_001733_010117_001125_009989_109637_124517,
  1_083406_000001_000001_000007_000003_000027_000043_000057_000077_000063_000907_001137_003333_000189_015285_013895_023773_073523_047811,
  1_083427_000001_000003_000003_000011_000017_000019_000081_000197_000073_000897_000515_003801_005105_006987_010125_007239_032339_124411,
  1_083439_000001_000003_000001_000009_000011_000015_000099_000109_000307_000133_000249_001463_005479_008565_019489_013773_011443_149799,
  1_083444_000001_000003_000007_000007_000019_000053_000061_000075_000083_000545_001449_000683_005845_008325_018111_035941_051843_097907,
  1_083453_000001_000001_000001_000003_000031_000023_000037_000187_000207_000051_000439_003095_002217_006393_009117_002779_047331_118275,
  1_083457_000001_000001_000003_000009_000023_000017_000041_000037_000059_000281_000319_001333_006207_002265_004445_050831_115893_120491,
  1_083475_000001_000003_000001_000013_000027_000023_000025_000023_000187_000051_001257_000379_000921_003801_024537_059547_034191_184625,
  1_083484_000001_000001_000005_000003_000023_000021_000023_000159_000163_000537_001589_002797_008007_006767_031331_020741_119969_174135,
  1_083488_000001_000003_000001_000001_000013_000035_000073_000147_000491_000317_000069_001069_005413_013973_019741_044717_063263_077145,
  1_083493_000001_000003_000001_000015_000031_000041_000023_000079_000055_000863_000129_002229_003395_001621_006273_044521_100047_042337,
  1_083512_000001_000003_000007_000003_000007_000005_000079_000001_000191_000227_001039_002909_001085_003173_029311_013861_124785_212453,
  1_083525_000001_000003_000001_000005_000013_000009_000099_000213_000061_000201_000889_001171_003981_002091_031679_026643_005611_154339,
  1_083535_000001_000003_000003_000007_000027_000049_000053_000077_000285_000441_001669_002157_000223_001899_002725_036547_039273_206653,
  1_083560_000001_000003_000003_000009_000029_000005_000091_000001_000013_000409_001275_000891_006557_005157_006481_057381_087683_117277,
  1_083617_000001_000003_000003_000001_000011_000007_000013_000069_000009_001015_000907_002685_006665_016307_024567_013191_009567_055073,
  1_083664_000001_000003_000001_000005_000019_000015_000065_000013_000503_000427_001947_001869_005857_000823_020533_025337_083551_128505,
  1_083676_000001_000001_000005_000011_000025_000053_000083_000175_000445_000005_000841_002773_004381_002829_001927_063689_063643_246629,
  1_083757_000001_000003_000001_000011_000027_000063_000043_000095_000453_000235_000673_000117_006617_007589_005767_016465_036961_039395,
  1_083770_000001_000001_000003_000013_000003_000027_000119_000087_000209_000167_000721_001499_001955_009151_011649_029009_025249_026125,
  1_083775_000001_000001_000005_000001_000009_000059_000047_000057_000081_000243_000485_000559_007311_015119_009827_047219_005941_016909,
  1_083835_000001_000003_000007_000011_000029_000013_000097_000063_000289_000653_001811_000835_000801_013103_009333_007785_111587_010021,
  1_083838_000001_000003_000003_000001_000027_000061_000073_000165_000279_000239_000865_000517_007763_001917_009839_020725_050721_171351,
  1_083848_000001_000003_000007_000001_000027_000029_000043_000137_000353_000927_000889_002511_000709_003309_000967_018119_048099_098139,
  1_083856_000001_000003_000001_000001_000017_000005_000079_000023_000367_000231_000605_003809_007557_014283_018417_015775_107421_009587,
  1_083878_000001_000001_000001_000007_000025_000009_000093_000041_000165_000509_000661_002165_003595_002555_011399_002403_076179_176003,
  1_083884_000001_000003_000003_000007_000027_000019_000055_000213_000083_000601_000377_002381_006831_005609_031321_026897_105321_144705,
  1_083896_000001_000003_000007_000007_000021_000011_000045_000055_000379_000133_000653_003593_007481_015789_012723_009697_020073_058211,
  1_083902_000001_000003_000005_000001_000001_000057_000089_000159_000461_000719_001251_003899_001063_010753_006509_028391_129377_195279,
  1_083922_000001_000003_000007_000007_000005_000039_000059_000081_000027_000169_001541_002213_003631_011601_013153_043221_014587_029719,
  1_083977_000001_000001_000001_000001_000003_000029_000103_000125_000035_000455_000255_003855_000567_012013_013285_044753_117415_226285,
  1_083985_000001_000001_000005_000001_000021_000041_000059_000069_000083_000813_001041_002559_001947_007343_005291_039281_056141_054487,
  1_083988_000001_000001_000007_000015_000025_000017_000083_000115_000321_000659_001625_003253_000281_006673_026301_045647_092151_150707,
  1_084034_000001_000001_000005_000015_000009_000019_000083_000167_000325_000869_000501_000483_002155_014697_012755_054687_100637_006791,
  1_084046_000001_000001_000007_000003_000003_000047_000091_000079_000347_000215_000847_002957_005881_005371_020099_045603_029349_175357,
  1_084058_000001_000003_000001_000003_000013_000043_000101_000235_000505_000289_000691_000673_005579_008721_009639_018569_044797_250887,
  1_084069_000001_000001_000003_000011_000023_000027_000085_000223_000365_000767_000577_002781_004179_012963_025235_051021_084989_149521,
  1_084107_000001_000001_000001_000001_000009_000051_000013_000129_000393_000725_001301_001391_004693_004979_016801_021361_122157_056675,
  1_084155_000001_000003_000005_000011_000007_000021_000097_000097_000017_000915_000255_000155_003961_007999_007493_052683_049377_131663,
  1_084157_000001_000003_000005_000015_000031_000023_000041_000187_000089_000933_000309_002519_006595_013785_014339_044393_064439_142105,
  1_084160_000001_000001_000001_000011_000013_000057_000029_000249_000467_000863_000077_003185_006221_013109_032397_013859_027331_035295,
  1_084165_000001_000003_000003_000003_000023_000031_000029_000189_000405_000855_001597_003167_004171_013801_012297_038019_130141_135517,
  1_084187_000001_000001_000005_000007_000013_000037_000087_000041_000503_000281_000103_001997_003603_004185_025331_055123_074263_248695,
  1_084214_000001_000003_000001_000015_000013_000057_000067_000135_000429_000489_000829_002069_007657_015713_003907_005819_114005_187859,
  1_084226_000001_000001_000003_000001_000023_000043_000093_000063_000005_000435_001649_001429_002923_009035_028667_013991_074491_236225,
  1_084235_000001_000003_000003_000007_000019_000029_000037_000143_000443_000955_001431_003193_006023_002421_028955_029171_126785_124709,
  1_084240_000001_000003_000007_000007_000023_000045_000059_000101_000025_000711_001685_000851_003101_012273_010775_057633_052739_244681,
  1_084255_000001_000001_000001_000005_000003_000013_000097_000143_000367_000139_001535_000873_008005_002795_011103_003837_125833_194903,
  1_084273_000001_000003_000005_000007_000023_000061_000061_000203_000443_000543_000573_002835_000941_012315_018453_034367_094359_132437,
  1_084291_000001_000001_000007_000005_000011_000021_000087_000027_000495_000067_001267_002029_005041_004133_018821_050249_052397_101431,
  1_084311_000001_000003_000003_000003_000013_000051_000089_000183_000061_000919_001841_000373_007091_009413_001227_044515_072869_198769,
  1_084317_000001_000003_000003_000011_000013_000063_000013_000253_000203_000571_000091_003477_000123_015353_007803_062729_014337_252725,
  1_084328_000001_000001_000007_000001_000011_000057_000045_000251_000351_000895_001813_003857_007545_009739_032029_024915_046261_008149,
  1_084346_000001_000003_000001_000015_000025_000041_000071_000047_000265_000567_000307_004079_001943_010407_002999_006605_097621_194711,
  1_084357_000001_000001_000003_000005_000017_000029_000097_000249_000449_000761_001727_001533_007417_016167_000421_039075_001029_180923]

def dirRows18_1_24 : List Nat := [
  1_084361_000001_000001_000001_000003_000011_000027_000067_000227_000131_000453_000951_003897_000515_004513_017361_050049_004533_035953,
  1_084372_000001_000001_000001_000013_000007_000053_000025_000163_000453_000195_001115_001019_003799_007489_012419_015141_112001_106459,
  1_084388_000001_000001_000003_000009_000027_000015_000063_000109_000293_000867_000645_001821_002867_009653_032617_039617_125589_249169,
  1_084415_000001_000001_000007_000005_000019_000017_000015_000105_000065_000143_000961_000493_007301_011299_004549_049873_082447_000107,
  1_084438_000001_000001_000007_000001_000031_000021_000019_000061_000255_000815_000421_003097_004993_009709_011529_053839_032653_137861,
  1_084444_000001_000003_000001_000009_000005_000005_000059_000179_000115_000101_000407_001143_000309_000843_031143_060639_126659_111695,
  1_084447_000001_000003_000007_000013_000007_000047_000065_000127_000159_000817_001029_002983_005443_011087_010595_047143_128353_195189,
  1_084451_000001_000003_000007_000001_000027_000021_000061_000235_000433_000929_000581_001925_008185_006037_028859_016843_043499_217091,
  1_084465_000001_000003_000007_000011_000001_000011_000081_000187_000227_000967_000025_002285_001251_010743_002321_029029_089739_188023,
  1_084471_000001_000003_000005_000011_000021_000025_000057_000201_000089_000965_001593_002879_002469_013675_028789_011407_013109_052749,
  1_084496_000001_000003_000003_000003_000019_000025_000087_000003_000127_000881_000645_000207_001129_004235_001533_052503_128733_238679,
  1_084554_000001_000003_000003_000001_000005_000005_000063_000181_000493_000457_001529_001795_000219_010807_026713_049673_047167_103595,
  1_084561_000001_000001_000003_000003_000001_000031_000065_000079_000473_000257_001477_000387_002843_004031_008459_044849_115157_008417,
  1_084571_000001_000003_000003_000005_000015_000001_000105_000067_000343_000333_001961_000649_005105_011387_027437_035471_026295_220309,
  1_084580_000001_000003_000007_000015_000001_000007_000023_000113_000067_001019_001793_003237_007223_005691_006279_050231_049393_084393,
  1_084598_000001_000001_000001_000007_000009_000029_000125_000249_000089_000813_000561_000871_001957_001095_018563_005257_039563_225651,
  1_084611_000001_000001_000001_000015_000017_000011_000051_000191_000217_000617_000793_003633_004673_015463_010621_047221_051611_155937,
  1_084620_000001_000003_000007_000015_000013_000007_000063_000057_000045_001005_000685_002913_003597_009933_014819_026015_080023_060547,
  1_084625_000001_000001_000005_000005_000031_000043_000069_000063_000425_000439_000143_000933_000675_011301_031779_053445_025143_213213,
  1_084632_000001_000001_000001_000005_000021_000009_000091_000089_000483_000153_000389_000007_000633_015527_021833_045171_088331_150935,
  1_084648_000001_000003_000005_000005_000011_000031_000049_000139_000295_000289_001623_003359_007551_011285_025083_027699_091869_237571,
  1_084659_000001_000001_000001_000009_000009_000025_000055_000071_000051_000603_001901_002729_006803_011135_005427_037285_069141_262073,
  1_084662_000001_000001_000003_000011_000003_000007_000081_000089_000049_000303_000755_000223_000603_012525_026037_047867_118871_238677,
  1_084683_000001_000003_000003_000011_000001_000053_000055_000015_000341_000151_000245_001979_003523_015151_025075_021425_048689_125391,
  1_084697_000001_000003_000003_000007_000015_000021_000073_000247_000215_000339_001995_000633_002557_005625_028443_016413_034615_260591,
  1_084698_000001_000003_000005_000001_000001_000059_000021_000247_000403_000015_001129_002263_003361_010675_030417_031285_069913_124329,
  1_084709_000001_000001_000005_000001_000017_000003_000103_000107_000333_000191_000345_003219_003845_005953_026403_051115_071623_052293,
  1_084722_000001_000001_000007_000005_000029_000013_000059_000065_000185_000091_000717_003179_001237_001187_025485_040119_006069_023567,
  1_084753_000001_000001_000001_000005_000017_000057_000027_000039_000269_000627_001239_000135_000623_000483_019229_051939_114387_146431,
  1_084775_000001_000003_000007_000009_000021_000041_000119_000129_000177_000149_001527_003639_004489_011635_023007_059863_085199_087795,
  1_084789_000001_000003_000005_000009_000017_000025_000057_000237_000129_000855_000199_001929_002793_004277_004509_046301_032905_102015,
  1_084885_000001_000001_000007_000001_000015_000023_000003_000131_000475_000347_001301_000241_000153_002801_029271_001337_107613_154105,
  1_084890_000001_000001_000001_000013_000005_000019_000043_000047_000381_000709_000637_002565_007503_010027_016873_023511_101785_047987,
  1_084899_000001_000001_000005_000013_000031_000015_000125_000097_000361_000819_000121_002723_003395_006943_005279_055977_103559_134177,
  1_084926_000001_000001_000007_000013_000017_000027_000105_000011_000327_000203_001355_001437_000959_010113_007405_043511_114073_199463,
  1_084946_000001_000001_000007_000005_000029_000019_000007_000151_000107_000739_001021_001287_006881_002741_003407_013847_075669_116015,
  1_084958_000001_000001_000001_000005_000005_000017_000099_000067_000179_000319_000149_004069_007811_003055_024669_021635_068057_072059,
  1_084976_000001_000003_000001_000011_000003_000003_000103_000045_000431_000159_001693_001069_003403_006121_012695_016565_029787_199327,
  1_084979_000001_000001_000005_000005_000005_000035_000097_000009_000007_000703_001533_000847_007693_016041_013127_026829_068801_205219,
  1_085003_000001_000001_000005_000009_000025_000059_000003_000063_000305_000071_001429_001567_002377_012611_009267_062381_032373_187735,
  1_085014_000001_000001_000003_000015_000005_000031_000021_000113_000329_000573_001975_001615_000947_000987_004655_046803_100251_089729,
  1_085017_000001_000001_000005_000009_000015_000063_000083_000005_000071_000191_001127_003529_007325_001169_004255_006715_042765_073231,
  1_085024_000001_000003_000003_000009_000011_000001_000001_000023_000097_000967_001465_001305_002073_003143_031333_001409_095321_182333,
  1_085029_000001_000003_000005_000013_000021_000053_000047_000105_000075_000721_000239_003619_002581_002063_021227_025579_023729_020067,
  1_085036_000001_000003_000005_000013_000001_000055_000055_000115_000391_000539_000869_003347_000189_011087_011533_018747_025387_019205,
  1_085042_000001_000003_000001_000015_000025_000057_000081_000027_000379_000635_001697_002805_008071_011407_014843_017593_020819_042891,
  1_085054_000001_000003_000005_000011_000001_000059_000051_000187_000011_000211_001425_003829_003193_015743_016479_004205_108205_205367,
  1_085056_000001_000001_000001_000005_000007_000007_000059_000085_000063_000509_000897_002473_007345_000111_004431_055273_114037_232541,
  1_085061_000001_000001_000005_000009_000029_000007_000025_000041_000401_000843_000115_000163_006835_013943_005223_031033_010813_250471,
  1_085066_000001_000001_000005_000011_000027_000045_000043_000233_000195_000151_000011_001539_004775_015743_015507_026939_030353_162929,
  1_085073_000001_000003_000001_000007_000007_000039_000001_000087_000085_001019_001711_002707_000735_005093_008231_025069_102861_045751,
  1_085096_000001_000003_000007_000001_000019_000049_000055_000249_000255_000809_001799_003475_007697_005003_012437_052313_096355_138537,
  1_085101_000001_000001_000003_000005_000005_000043_000025_000095_000349_000775_000213_003643_001355_007745_009553_053367_123655_195365,
  1_085109_000001_000001_000001_000001_000019_000053_000039_000105_000449_000447_000147_002293_007817_001503_031985_037193_051039_209083,
  1_085114_000001_000003_000003_000015_000027_000015_000059_000051_000411_000543_000421_003595_002091_007171_023595_033509_037283_105719,
  1_085119_000001_000003_000001_000011_000005_000037_000005_000203_000171_000853_001875_002735_004003_015163_026193_036149_031389_256631,
  1_085123_000001_000003_000005_000001_000021_000001_000127_000041_000185_000929_001757_002711_002947_009709_018401_045037_001371_242397,
  1_085149_000001_000001_000001_000001_000013_000043_000051_000187_000487_000759_001579_000959_002499_004781_027179_006839_043869_036163,
  1_085185_000001_000003_000001_000015_000005_000003_000101_000025_000181_000107_001105_000879_005341_012215_021615_009619_129591_108393,
  1_085228_000001_000001_000007_000001_000011_000039_000055_000101_000043_000935_001703_001269_006751_013723_007463_010055_112971_072789,
  1_085236_000001_000003_000005_000013_000007_000003_000081_000041_000055_000375_000663_000801_005051_014583_030793_063897_127255_174179,
  1_085281_000001_000003_000001_000007_000019_000031_000053_000029_000313_000057_001411_000103_006863_010673_004341_005587_106059_222309,
  1_085282_000001_000003_000007_000003_000001_000033_000089_000199_000091_000557_000715_002715_004753_005987_030355_013819_057443_112179,
  1_085293_000001_000003_000005_000007_000013_000027_000055_000011_000495_000029_001273_001727_003397_002739_022907_046203_016687_047385,
  1_085302_000001_000003_000005_000009_000013_000023_000023_000107_000353_000429_000359_002667_006137_007213_007977_035903_118507_209243,
  1_085319_000001_000003_000001_000013_000009_000007_000037_000135_000377_000753_001819_000113_007379_002795_010373_007131_017845_246101,
  1_085353_000001_000001_000003_000011_000011_000045_000053_000209_000049_000385_001573_001129_002939_010949_000413_059193_015399_169355,
  1_085354_000001_000001_000005_000015_000029_000029_000089_000139_000403_000011_001335_002601_003631_015317_001707_003517_001939_121997,
  1_085356_000001_000003_000001_000007_000017_000003_000113_000097_000435_000911_001743_001649_004829_009995_002873_017527_046931_086199,
  1_085389_000001_000001_000007_000001_000013_000019_000083_000051_000049_000671_001651_003443_002279_005677_008859_041945_110607_200469,
  1_085418_000001_000001_000005_000013_000019_000063_000019_000073_000205_000571_000507_001781_001489_005909_010351_064607_067023_049441,
  1_085446_000001_000001_000003_000005_000013_000035_000107_000063_000489_000069_001541_003761_000017_009317_020323_035401_061451_116115,
  1_085450_000001_000003_000001_000005_000031_000035_000039_000119_000237_000533_000107_003235_004929_015839_009309_050131_110945_024739,
  1_085463_000001_000003_000001_000005_000003_000025_000073_000145_000391_000481_001927_003071_004347_013415_026723_051629_003003_054575,
  1_085497_000001_000003_000003_000011_000029_000063_000063_000183_000011_000269_000153_003379_005603_014279_028579_004653_098179_125693,
  1_085534_000001_000001_000005_000015_000001_000051_000101_000069_000177_000233_000213_002389_004963_003391_013419_041283_025667_187239,
  1_085543_000001_000001_000001_000011_000013_000029_000095_000231_000481_000283_001323_000521_004689_005311_021949_031851_115845_050433,
  1_085549_000001_000003_000007_000015_000011_000031_000067_000207_000057_000439_001561_002167_000673_006467_008189_031783_005051_064097,
  1_085562_000001_000001_000007_000009_000017_000057_000077_000085_000119_000149_000211_002727_004921_008701_023121_036355_009179_068003,
  1_085587_000001_000001_000005_000015_000001_000015_000123_000205_000079_000299_000071_003413_007635_005699_032393_010253_086205_216015,
  1_085590_000001_000001_000005_000011_000023_000039_000105_000187_000487_000247_000333_002423_005643_008111_023549_050153_122859_100361,
  1_085599_000001_000001_000001_000009_000011_000033_000065_000125_000067_000743_001331_001563_006333_011375_015873_018137_052765_224889,
  1_085630_000001_000003_000005_000009_000015_000017_000081_000165_000003_000609_000635_002093_006635_008647_025883_018907_073333_080835,
  1_085660_000001_000001_000001_000011_000001_000001_000025_000115_000205_000941_001917_001295_003659_000821_011355_001435_040289_115627,
  1_085669_000001_000003_000001_000009_000013_000023_000035_000105_000441_000777_001255_003315_001157_008719_009939_038931_120723_123201,
  1_085693_000001_000001_000005_000003_000001_000021_000095_000143_000023_000233_000073_001223_005619_008583_021417_061971_074565_116249,
  1_085711_000001_000001_000007_000007_000023_000035_000021_000201_000441_000623_000419_002375_001189_015681_029469_029437_124525_241899,
  1_085716_000001_000001_000003_000001_000011_000007_000023_000171_000435_000467_001811_000063_003705_009395_000579_058305_086165_067805,
  1_085773_000001_000003_000001_000003_000013_000011_000107_000243_000163_000079_000815_001149_002247_012411_030287_056915_026939_085883,
  1_085801_000001_000003_000003_000001_000005_000023_000105_000063_000035_000057_001815_003325_003727_003623_007203_008301_028073_190053,
  1_085815_000001_000003_000001_000011_000023_000033_000121_000055_000287_000139_000491_000907_004237_000017_020055_063729_007517_151597,
  1_085839_000001_000003_000005_000005_000021_000001_000037_000019_000159_001013_000027_002627_000851_014021_031311_005871_077613_125311,
  1_085842_000001_000003_000003_000001_000027_000003_000051_000133_000459_000581_000383_001351_006149_015611_002631_020797_065955_113665,
  1_085864_000001_000003_000001_000011_000023_000061_000075_000217_000283_000405_000767_001151_007501_005553_000113_048331_049379_191473,
  1_085867_000001_000003_000005_000005_000015_000003_000019_000027_000497_000519_001611_000709_000405_013329_027861_014981_047197_173979,
  1_085903_000001_000001_000007_000007_000025_000019_000099_000219_000349_000713_001421_003427_000153_013319_022415_048617_119637_020835,
  1_085917_000001_000001_000001_000003_000013_000037_000043_000009_000317_000961_001255_002975_002775_012283_029941_057495_077413_256695,
  1_085921_000001_000001_000007_000005_000029_000037_000091_000199_000397_000739_000877_000251_000847_002951_019497_057285_076891_258711,
  1_085928_000001_000001_000007_000015_000021_000055_000107_000115_000481_000845_002015_000481_003823_014071_004037_039687_062867_170891,
  1_085934_000001_000003_000003_000001_000017_000051_000081_000195_000189_000455_001343_001493_000351_000361_020289_037423_007747_245861]

def dirRows18_1_25 : List Nat := [
  1_085974_000001_000001_000005_000015_000009_000041_000071_000155_000197_000563_001271_002227_002557_006657_013565_008467_096135_005903,
  1_085994_000001_000001_000005_000013_000029_000033_000115_000131_000283_000435_001327_001113_004729_014125_023743_040121_119955_237453,
  1_085999_000001_000001_000001_000001_000013_000021_000109_000091_000105_000749_001695_001123_004349_009855_031565_064001_007919_083591,
  1_086004_000001_000003_000001_000001_000013_000019_000089_000083_000013_000609_000731_002655_001123_013415_005645_010003_069381_187621,
  1_086008_000001_000003_000001_000015_000003_000037_000001_000139_000011_000917_001191_001381_006035_013851_004565_005427_117703_109965,
  1_086046_000001_000001_000005_000003_000017_000037_000015_000115_000019_000065_001807_003879_002709_009819_011457_053705_014821_156079,
  1_086067_000001_000001_000007_000013_000017_000029_000105_000077_000127_000457_001287_001533_006879_004001_004083_029523_081175_226409,
  1_086084_000001_000003_000001_000005_000005_000059_000021_000253_000459_000733_000409_003359_001913_008893_016113_061063_006511_022441,
  1_086087_000001_000003_000005_000011_000007_000001_000121_000217_000063_000083_000173_001869_007931_000655_021053_020703_116853_131785,
  1_086093_000001_000001_000007_000007_000005_000013_000041_000057_000001_000017_000649_000233_002867_005577_030553_007635_045305_047979,
  1_086121_000001_000001_000007_000001_000001_000029_000061_000241_000107_000891_000049_003433_005045_000143_022473_029243_082625_184163,
  1_086122_000001_000003_000001_000011_000011_000021_000119_000043_000117_000429_001569_000637_000067_009475_031779_002237_122037_245361,
  1_086127_000001_000001_000007_000001_000031_000061_000009_000179_000467_000153_001913_002839_006255_012715_028229_020189_003617_213539,
  1_086151_000001_000001_000007_000013_000025_000061_000009_000109_000331_000577_000021_001017_006521_005991_026573_056881_058455_169407,
  1_086166_000001_000001_000007_000009_000031_000057_000051_000041_000327_000859_001295_001577_001071_003277_011685_062129_034111_174639,
  1_086179_000001_000003_000005_000001_000007_000063_000035_000165_000043_000943_001545_003717_001471_011579_029637_022913_008867_012837,
  1_086188_000001_000001_000003_000001_000023_000007_000019_000151_000359_000347_001085_003923_001039_005149_006047_049811_033099_247983,
  1_086193_000001_000001_000001_000005_000029_000023_000073_000189_000059_000865_001499_001953_001261_001071_026761_026145_129427_223219,
  1_086206_000001_000003_000001_000009_000001_000029_000107_000173_000387_000703_000193_001965_006233_010997_032697_031005_015415_094345,
  1_086214_000001_000001_000003_000009_000031_000035_000007_000015_000317_000079_002045_001455_001559_015087_000287_046665_037225_149017,
  1_086226_000001_000001_000005_000013_000017_000027_000011_000107_000047_000803_001487_003049_001171_006237_009157_010037_122349_236877,
  1_086242_000001_000001_000007_000009_000021_000035_000053_000139_000165_000073_001405_002941_003553_011945_002493_005743_063749_140535,
  1_086256_000001_000003_000007_000011_000007_000057_000041_000187_000483_000499_000687_000117_004951_014709_017025_023027_094863_228465,
  1_086259_000001_000003_000007_000007_000027_000029_000085_000117_000201_000637_000823_001135_007595_003323_023579_040759_025087_000995,
  1_086298_000001_000003_000001_000009_000031_000053_000101_000029_000381_000101_001939_001973_008191_008155_013881_032309_092907_239525,
  1_086300_000001_000001_000005_000007_000003_000035_000015_000207_000001_000047_000325_000559_003377_003909_031225_028367_063891_019129,
  1_086307_000001_000001_000001_000005_000031_000061_000117_000211_000127_000969_000073_001295_007167_014881_009965_028143_028161_131867,
  1_086310_000001_000003_000007_000005_000005_000057_000037_000207_000201_000079_001151_003685_002071_001751_005481_051447_103437_154895,
  1_086319_000001_000003_000005_000013_000009_000005_000057_000027_000131_000211_001481_002237_004227_006927_018625_049773_055399_015209,
  1_086321_000001_000003_000001_000007_000023_000029_000003_000179_000479_000787_000463_002041_002581_006281_001657_051433_093807_160047,
  1_086328_000001_000001_000003_000013_000025_000035_000033_000231_000385_000479_000335_003837_005517_013603_015623_046737_042507_208355,
  1_086356_000001_000001_000007_000009_000003_000025_000051_000125_000213_000175_001575_001755_001843_014361_013155_022445_055435_062793,
  1_086360_000001_000001_000001_000007_000025_000003_000021_000007_000309_000547_000019_000471_002679_016185_012149_041437_047625_075113,
  1_086375_000001_000001_000005_000001_000009_000023_000081_000095_000123_000143_001111_000009_003501_011897_026499_010009_048073_182529,
  1_086399_000001_000003_000001_000001_000001_000017_000015_000157_000129_001005_000543_003917_003493_006537_026997_033217_007987_251635,
  1_086400_000001_000003_000001_000013_000011_000041_000009_000019_000173_000751_000491_001645_005205_009907_028503_061137_079727_200851,
  1_086403_000001_000001_000001_000001_000003_000005_000105_000203_000097_000903_001507_002719_005275_001023_029595_042507_039893_151495,
  1_086430_000001_000001_000001_000011_000031_000053_000051_000065_000145_000671_000489_000109_000803_008541_004439_033893_098495_114955,
  1_086446_000001_000001_000007_000011_000027_000063_000117_000235_000497_000841_001461_003757_001077_006997_009611_047453_020197_176939,
  1_086460_000001_000003_000003_000003_000031_000017_000085_000145_000377_000225_001033_003017_000735_005811_025503_025457_124623_051713,
  1_086465_000001_000003_000003_000013_000019_000033_000127_000057_000321_000687_001651_003321_005051_008511_019609_049927_030499_102613,
  1_086486_000001_000001_000005_000013_000007_000017_000017_000147_000381_000137_001007_002607_001071_008921_013955_047223_130359_246265,
  1_086502_000001_000003_000007_000009_000013_000035_000071_000129_000057_000233_000357_003181_002841_003707_024947_057777_115133_006049,
  1_086563_000001_000003_000007_000015_000023_000001_000107_000225_000057_000633_001515_001631_004303_004221_008281_059139_045023_070219,
  1_086595_000001_000001_000007_000005_000009_000009_000093_000131_000041_000245_001261_000459_004811_010987_010421_063839_034067_196353,
  1_086635_000001_000003_000003_000013_000017_000003_000087_000255_000167_000701_000821_001965_001415_004101_000549_006347_092421_047193,
  1_086649_000001_000003_000007_000011_000023_000017_000051_000081_000071_000345_000971_000917_001057_003627_020361_013491_012855_234215,
  1_086661_000001_000001_000001_000013_000017_000009_000025_000155_000463_000851_000243_003887_002445_007459_019915_021813_086969_085891,
  1_086674_000001_000001_000007_000001_000009_000015_000057_000201_000193_000169_000351_001355_001089_004705_015153_051359_049907_066007,
  1_086689_000001_000003_000001_000009_000019_000013_000069_000083_000039_000667_001549_001503_007167_008657_017269_059357_080091_194007,
  1_086721_000001_000003_000005_000005_000017_000037_000125_000117_000355_000685_000637_003159_004783_003159_014953_012731_126759_089149,
  1_086734_000001_000003_000003_000009_000015_000053_000007_000041_000473_000857_000511_003741_006837_006167_026351_009885_104819_048221,
  1_086741_000001_000003_000007_000015_000021_000021_000021_000101_000465_000223_000013_001773_002763_008621_023591_012633_082143_134899,
  1_086742_000001_000003_000001_000001_000029_000025_000067_000019_000349_000503_000655_003567_000097_006967_018253_042755_033041_250279,
  1_086784_000001_000001_000007_000009_000017_000001_000007_000165_000255_000613_000579_000127_007567_013181_006255_001785_021527_113815,
  1_086799_000001_000003_000001_000005_000027_000033_000061_000235_000037_000135_001515_003611_001825_009627_018805_037065_126107_023223,
  1_086808_000001_000003_000007_000005_000023_000011_000029_000121_000129_000311_000429_001653_005789_007693_018775_018189_097203_213501,
  1_086837_000001_000003_000007_000003_000029_000061_000087_000197_000043_000509_000005_003275_000345_007885_004381_022059_001395_040125,
  1_086869_000001_000003_000005_000001_000001_000059_000069_000125_000297_000983_000641_002665_007045_008591_016581_058657_119189_256579,
  1_086900_000001_000003_000007_000007_000007_000053_000065_000181_000149_000987_001377_004045_000971_009827_017727_059357_090975_027395,
  1_086949_000001_000001_000007_000007_000001_000051_000109_000165_000361_000515_000739_003709_006431_000113_021401_041743_053071_134205,
  1_086993_000001_000003_000001_000013_000005_000051_000107_000099_000135_000163_001705_001683_006221_001377_002211_013379_022801_208753,
  1_086999_000001_000003_000005_000011_000011_000039_000049_000045_000503_000549_000821_004077_000885_013721_029673_028435_006235_212071,
  1_087030_000001_000003_000003_000011_000015_000025_000017_000067_000125_000007_001163_000973_005325_012707_012763_009481_021363_195897,
  1_087041_000001_000001_000007_000009_000017_000019_000015_000013_000107_000919_000461_000343_001101_008195_029293_061643_064995_230469,
  1_087044_000001_000003_000005_000001_000009_000025_000039_000065_000027_000461_000669_002841_007973_011565_009531_052235_006741_215513,
  1_087084_000001_000003_000003_000001_000007_000057_000101_000199_000037_000079_002033_001723_006877_002733_026445_062625_021671_238431,
  1_087116_000001_000001_000001_000009_000027_000031_000125_000199_000331_000611_000523_000407_000747_009499_004685_017805_043717_253233,
  1_087138_000001_000001_000003_000007_000029_000007_000007_000153_000339_000337_000701_002639_006311_006375_026023_027693_059733_260405,
  1_087162_000001_000001_000007_000007_000015_000027_000023_000049_000181_000433_000485_002915_006021_009095_015951_047257_104513_208089,
  1_087188_000001_000001_000005_000007_000019_000019_000125_000153_000109_000829_001967_002567_007157_006001_010151_055323_092405_082549,
  1_087211_000001_000001_000003_000011_000013_000017_000085_000215_000265_000875_000311_003773_008059_002115_019259_063999_077411_220267,
  1_087234_000001_000003_000001_000015_000015_000035_000081_000213_000411_000435_000105_001487_001991_014539_008175_002115_047259_045893,
  1_087245_000001_000003_000001_000011_000009_000047_000027_000115_000449_000521_000321_002463_001355_005785_011269_045337_029049_091675,
  1_087246_000001_000003_000001_000013_000021_000053_000049_000083_000373_000519_000757_001241_000577_014443_000449_044773_116673_155209,
  1_087260_000001_000003_000003_000001_000029_000063_000097_000145_000371_000585_001809_003997_000249_000283_028369_027325_061673_012637,
  1_087270_000001_000003_000005_000009_000011_000055_000077_000089_000285_000297_000861_002791_003245_015093_032489_040477_097603_035347,
  1_087284_000001_000001_000001_000003_000027_000033_000115_000209_000169_000893_000393_001457_006069_012511_020423_011385_086711_197555,
  1_087293_000001_000003_000005_000015_000021_000025_000087_000159_000477_000177_000991_000495_000029_009347_009721_004071_030145_214155,
  1_087296_000001_000001_000005_000003_000011_000045_000053_000251_000177_000651_000549_003377_003247_008761_020339_027743_103387_159591,
  1_087299_000001_000003_000007_000011_000017_000027_000043_000179_000507_000553_000261_003939_006133_006347_012987_046071_042551_099225,
  1_087305_000001_000003_000003_000011_000003_000033_000085_000051_000277_000117_001295_002435_001467_013787_002209_052673_053515_157625,
  1_087308_000001_000003_000003_000003_000009_000015_000121_000229_000227_000795_000541_003727_004333_002251_027833_043567_082505_230427,
  1_087313_000001_000001_000005_000013_000029_000019_000119_000063_000207_000945_000761_002601_001391_008939_011683_052433_063301_082501,
  1_087323_000001_000003_000007_000001_000003_000057_000127_000115_000209_000031_001631_000347_003937_004015_013313_049507_015103_237071,
  1_087332_000001_000003_000001_000013_000003_000025_000085_000151_000115_000385_000303_002453_002417_008051_001447_059517_003711_160345,
  1_087361_000001_000003_000001_000013_000001_000023_000049_000075_000117_000295_001737_002091_006229_003157_032737_013751_101667_096261,
  1_087376_000001_000003_000003_000005_000027_000019_000103_000201_000065_000757_001847_000239_002185_015139_008883_017737_009207_147663,
  1_087392_000001_000003_000001_000009_000003_000039_000051_000001_000419_000929_001049_002891_002585_002759_027587_055711_015461_046851,
  1_087419_000001_000001_000005_000003_000023_000023_000023_000101_000249_000997_001889_002293_005693_000939_029619_002775_049293_168895,
  1_087432_000001_000003_000001_000015_000009_000063_000017_000097_000385_000517_001737_000713_000157_002597_020889_035209_047525_014389,
  1_087435_000001_000003_000001_000001_000007_000027_000009_000147_000349_000493_000341_002699_007743_004283_024691_011881_078619_153899,
  1_087445_000001_000003_000001_000009_000015_000025_000103_000177_000485_000355_001319_000767_006675_003425_007187_053767_092023_151523,
  1_087466_000001_000001_000003_000003_000015_000035_000025_000177_000295_000005_000661_003651_002597_016229_001343_054941_072047_169155,
  1_087491_000001_000001_000001_000001_000019_000029_000063_000229_000079_000551_001401_002851_006935_012485_009243_021671_054209_105347,
  1_087503_000001_000001_000003_000001_000013_000033_000053_000125_000261_000623_000065_003863_001899_002453_016483_048655_050771_248555,
  1_087558_000001_000003_000005_000007_000025_000015_000107_000149_000485_000247_001977_003125_004663_004925_015749_039429_052315_030545,
  1_087570_000001_000001_000007_000013_000023_000013_000127_000111_000009_000017_001887_001341_003017_014333_006003_035113_014935_017593,
  1_087581_000001_000001_000001_000015_000023_000017_000111_000043_000071_000549_001369_001711_003903_013605_014573_018973_028157_128421,
  1_087603_000001_000001_000007_000015_000027_000023_000005_000099_000087_000865_001979_003287_003977_014989_017439_014593_092711_211259]

/-- Rows with 18 initial numbers, part 1. -/
def dir18_1 : List (List Nat) := [
  dirRows18_1_0,
  dirRows18_1_1,
  dirRows18_1_2,
  dirRows18_1_3,
  dirRows18_1_4,
  dirRows18_1_5,
  dirRows18_1_6,
  dirRows18_1_7,
  dirRows18_1_8,
  dirRows18_1_9,
  dirRows18_1_10,
  dirRows18_1_11,
  dirRows18_1_12,
  dirRows18_1_13,
  dirRows18_1_14,
  dirRows18_1_15,
  dirRows18_1_16,
  dirRows18_1_17,
  dirRows18_1_18,
  dirRows18_1_19,
  dirRows18_1_20,
  dirRows18_1_21,
  dirRows18_1_22,
  dirRows18_1_23,
  dirRows18_1_24,
  dirRows18_1_25]

end SALib.Data
