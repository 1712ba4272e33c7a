/-! # Direction-number table, rows 8314 to 10913

Generated from `src/SALib/sample/directions.py` lines 8316-10915.  One row per line: a leading 1, then
every number of the row padded to six digits (so the row `(7, 1, 1, 7, 11, 19)` is
`1_000007_000001_000001_000007_000011_000019`).  Rows are grouped by the number `s` of initial numbers. -/

namespace SALib.Data

def dirRows17_1_0 : List Nat := [
  1_022134_000001_000003_000005_000015_000029_000013_000001_000199_000065_000385_000977_000797_001181_010979_000241_040393_073663,
  1_022140_000001_000001_000003_000007_000017_000035_000047_000063_000193_000451_000151_003415_000099_014557_026025_031361_112639,
  1_022147_000001_000001_000003_000005_000019_000013_000029_000033_000365_000311_001241_000217_006205_013067_018585_021693_097127,
  1_022161_000001_000001_000003_000015_000019_000007_000087_000025_000091_000013_001839_001445_000957_009779_025557_037027_038987,
  1_022164_000001_000001_000005_000001_000021_000005_000079_000067_000481_000455_000037_001321_007723_001413_007919_011035_005739,
  1_022173_000001_000001_000001_000015_000009_000055_000111_000001_000383_000439_001037_004055_004243_010443_026737_021039_130847,
  1_022197_000001_000001_000007_000009_000013_000025_000071_000137_000307_000717_001009_002477_003861_014145_014549_059589_093401,
  1_022207_000001_000001_000007_000005_000029_000063_000077_000049_000471_000267_001457_001743_001915_014793_017899_028011_092183,
  1_022210_000001_000003_000007_000007_000007_000041_000047_000251_000075_000749_001915_001015_005869_003211_024097_014349_130571,
  1_022216_000001_000001_000001_000001_000031_000063_000105_000083_000345_000147_000975_000135_007299_015801_019311_026143_080293,
  1_022234_000001_000001_000003_000001_000007_000001_000047_000045_000251_000635_000583_003515_005233_006281_007797_037949_075877,
  1_022257_000001_000001_000003_000003_000005_000053_000099_000175_000155_000327_001841_000211_002811_016099_017255_034253_124141,
  1_022264_000001_000003_000001_000003_000013_000027_000081_000217_000115_000245_000101_001641_000029_001441_004829_028399_102303,
  1_022278_000001_000003_000001_000005_000011_000055_000031_000091_000337_000203_000987_000977_004929_014933_025149_020493_019783,
  1_022284_000001_000001_000005_000009_000009_000037_000103_000211_000349_000165_001421_003015_005133_004615_028173_045787_010711,
  1_022287_000001_000001_000001_000001_000001_000017_000029_000117_000421_000651_001617_001677_007841_016303_008843_001321_090701,
  1_022299_000001_000001_000001_000015_000027_000023_000049_000195_000139_000319_001277_000901_000063_014677_021815_019497_024883,
  1_022301_000001_000003_000003_000013_000001_000023_000017_000189_000293_000765_001503_001485_007427_011807_017629_061739_111365,
  1_022308_000001_000001_000005_000005_000015_000041_000025_000053_000221_000449_001597_002763_004119_006319_017509_023493_104707,
  1_022337_000001_000003_000007_000011_000029_000021_000101_000197_000161_000457_000331_003817_005139_014307_023225_055567_062535,
  1_022349_000001_000001_000007_000005_000009_000057_000039_000101_000005_000847_001311_000313_002877_014811_021969_031741_008075,
  1_022350_000001_000003_000005_000003_000001_000011_000045_000163_000251_000775_001031_001957_001631_001691_003191_006255_013037,
  1_022357_000001_000001_000003_000013_000007_000011_000095_000097_000409_000835_000707_001579_002409_009451_015069_062425_106499,
  1_022364_000001_000003_000003_000011_000005_000025_000023_000207_000429_000299_000537_001467_006309_000891_015009_056733_060397,
  1_022373_000001_000003_000005_000003_000029_000047_000095_000115_000207_000177_000543_000427_000145_011169_007441_010911_087413,
  1_022377_000001_000003_000007_000011_000025_000053_000015_000225_000115_000295_000919_000039_000513_009989_011045_024015_102387,
  1_022380_000001_000001_000007_000015_000013_000031_000103_000143_000357_000825_000183_000137_002671_009803_014777_048333_079483,
  1_022386_000001_000003_000005_000001_000025_000013_000065_000009_000461_000307_001289_001035_007253_014223_016829_023361_084987,
  1_022391_000001_000003_000005_000007_000005_000057_000047_000251_000005_000009_000965_002883_003105_013931_000807_031977_119035,
  1_022392_000001_000001_000003_000005_000003_000007_000055_000165_000003_000787_001587_000989_006049_014021_030789_015283_092851,
  1_022411_000001_000001_000005_000005_000003_000017_000011_000167_000487_000885_000193_003485_008179_009485_024913_040267_070625,
  1_022422_000001_000001_000007_000001_000027_000031_000009_000139_000073_000137_000783_000321_000691_006157_019905_045525_084877,
  1_022425_000001_000003_000001_000009_000017_000039_000127_000177_000301_000579_001065_003899_000281_009177_016295_051217_120293,
  1_022431_000001_000001_000007_000009_000031_000059_000017_000093_000247_000779_000847_001183_003453_001073_018597_002655_121633,
  1_022438_000001_000001_000007_000001_000025_000043_000047_000253_000023_000999_000973_001201_001061_005947_005619_036311_001545,
  1_022441_000001_000003_000005_000007_000011_000005_000103_000119_000229_000657_001993_001991_001597_013165_019137_007161_083487,
  1_022442_000001_000001_000001_000001_000011_000023_000105_000183_000467_000083_000899_002447_004949_004171_028943_004829_013033,
  1_022449_000001_000003_000001_000007_000015_000007_000047_000215_000253_000109_001975_003337_001553_013575_016835_061525_026423,
  1_022452_000001_000001_000007_000001_000021_000017_000053_000079_000175_000267_000999_000249_006177_010453_012475_059801_047351,
  1_022461_000001_000003_000005_000011_000003_000057_000005_000193_000421_000799_001833_002635_006537_004669_009597_040661_012113,
  1_022467_000001_000001_000007_000011_000009_000011_000069_000103_000139_000167_000159_002469_000703_001519_021553_062875_060449,
  1_022479_000001_000001_000005_000003_000009_000011_000017_000183_000499_000301_001275_000605_007655_012141_007783_039413_116263,
  1_022484_000001_000001_000001_000007_000031_000055_000023_000079_000049_000247_000761_003573_008187_004879_027379_015725_081415,
  1_022487_000001_000003_000005_000005_000005_000049_000023_000205_000509_000383_001165_003839_007663_001539_019967_055901_004351,
  1_022493_000001_000001_000001_000011_000007_000015_000003_000159_000235_000735_000391_002231_005043_009759_004569_035601_071989,
  1_022510_000001_000003_000003_000015_000023_000003_000049_000097_000099_000517_001097_003517_001035_002319_027705_025547_101555,
  1_022521_000001_000003_000007_000011_000027_000029_000033_000241_000205_000113_000291_001993_003277_013155_001039_042367_130477,
  1_022533_000001_000001_000001_000003_000029_000019_000015_000159_000035_000153_001177_003011_006271_008203_008971_019183_102871,
  1_022534_000001_000001_000001_000005_000005_000051_000019_000175_000209_000895_000229_002355_000499_007877_004935_022737_035587,
  1_022543_000001_000003_000007_000011_000015_000009_000007_000113_000041_000835_001593_003933_007165_010959_015487_030019_114505,
  1_022548_000001_000001_000007_000005_000031_000021_000027_000011_000421_000165_001605_001859_000029_013051_003273_003893_056089,
  1_022552_000001_000003_000005_000005_000017_000051_000055_000187_000401_000977_000095_002617_000727_009609_005075_048989_120299,
  1_022558_000001_000001_000005_000007_000021_000031_000127_000087_000379_000125_000247_003607_002555_011873_032535_016677_122273,
  1_022561_000001_000001_000001_000005_000019_000021_000051_000185_000203_000145_001073_000167_000235_012753_017315_014683_044101,
  1_022562_000001_000003_000003_000001_000005_000061_000071_000017_000063_000151_000823_000017_005315_004861_017279_023049_084971,
  1_022568_000001_000003_000003_000005_000021_000063_000021_000235_000295_000467_001661_002487_000335_006107_028709_055875_129085,
  1_022571_000001_000003_000003_000005_000001_000055_000035_000187_000005_000687_001633_002999_004513_010105_015249_022591_102857,
  1_022574_000001_000003_000001_000005_000019_000001_000113_000027_000261_000623_000831_003011_004091_011967_017191_017433_099925,
  1_022581_000001_000003_000005_000005_000025_000059_000081_000249_000463_000523_000183_003049_003675_002705_028379_001279_025579,
  1_022594_000001_000001_000003_000009_000019_000019_000071_000127_000189_000613_000647_001449_007755_001415_009067_030683_079703,
  1_022603_000001_000001_000007_000001_000027_000033_000061_000135_000233_000633_001969_002245_005841_014069_006497_063617_101483,
  1_022605_000001_000003_000003_000009_000023_000003_000017_000163_000309_000741_002023_002647_005847_007871_022311_038377_070663,
  1_022606_000001_000003_000005_000015_000031_000033_000051_000243_000209_000273_001305_001599_006115_006249_008639_005903_017215,
  1_022623_000001_000001_000001_000001_000021_000011_000107_000185_000463_000435_000149_003789_006283_001327_020893_010417_078673,
  1_022630_000001_000001_000001_000013_000005_000053_000121_000129_000493_000419_001711_002765_007673_008979_025845_062759_009669,
  1_022651_000001_000003_000005_000005_000001_000039_000123_000047_000449_000639_000625_002355_000511_001685_001415_032417_076529,
  1_022657_000001_000003_000001_000011_000001_000049_000067_000237_000203_000967_001401_002773_004951_013889_014147_041031_071897,
  1_022669_000001_000003_000005_000011_000013_000049_000017_000113_000315_000207_001057_003395_006151_002767_016571_001811_066403,
  1_022670_000001_000001_000007_000007_000029_000063_000049_000115_000327_000987_001853_003355_008139_002703_030039_051343_086999,
  1_022677_000001_000001_000003_000009_000001_000003_000045_000035_000509_000483_000159_001795_008023_006989_003755_020887_013587,
  1_022682_000001_000001_000003_000007_000001_000027_000039_000159_000283_000843_000317_003229_002297_015031_022039_021721_070583,
  1_022698_000001_000001_000003_000011_000009_000023_000001_000035_000079_000077_001671_002583_000647_012313_016271_002959_108389,
  1_022712_000001_000001_000001_000007_000005_000055_000001_000233_000429_000231_000833_001279_007815_001051_030627_004435_025997,
  1_022715_000001_000003_000001_000015_000019_000053_000009_000165_000307_000437_000551_002477_001841_011799_018477_005871_020065,
  1_022729_000001_000001_000001_000001_000021_000005_000065_000041_000077_000909_000093_000751_002973_007341_030427_060075_071457,
  1_022732_000001_000001_000003_000011_000025_000051_000049_000063_000165_000263_001915_000747_008053_006361_004843_020189_110147,
  1_022735_000001_000003_000001_000009_000029_000009_000045_000177_000415_000557_001555_002967_001239_008115_012853_019193_073681,
  1_022738_000001_000001_000005_000005_000011_000005_000051_000157_000325_000517_001601_003911_001487_013631_007483_061515_048937,
  1_022740_000001_000003_000007_000005_000029_000031_000107_000047_000437_000837_001791_000477_001717_000007_025855_048793_016385,
  1_022750_000001_000001_000001_000003_000029_000049_000031_000255_000233_000935_001993_000125_002255_012785_002807_054697_062591,
  1_022753_000001_000003_000001_000007_000015_000013_000009_000245_000079_000289_000841_000253_005259_016123_029189_063837_127915,
  1_022760_000001_000003_000007_000015_000015_000055_000091_000103_000445_000289_001471_000423_003387_015609_019311_028993_023473,
  1_022765_000001_000001_000003_000011_000031_000039_000069_000125_000115_000309_000397_003417_005693_010301_001489_025955_002699,
  1_022768_000001_000003_000003_000005_000013_000021_000051_000207_000239_000311_001601_002925_006285_009597_030579_062957_006153,
  1_022778_000001_000001_000007_000001_000027_000021_000063_000143_000399_000971_001385_001875_005143_006423_006223_027009_014237,
  1_022785_000001_000003_000005_000001_000005_000059_000125_000133_000151_000997_001315_003007_008173_016289_013409_000839_103519,
  1_022809_000001_000001_000001_000013_000007_000057_000083_000033_000191_000121_000939_003927_006089_010083_005903_052229_078325,
  1_022810_000001_000001_000003_000005_000009_000061_000043_000107_000279_000135_001109_003779_005305_015333_012217_041257_020265,
  1_022812_000001_000003_000007_000001_000031_000059_000083_000043_000219_000119_000511_002973_004587_010701_030959_021489_124077,
  1_022828_000001_000001_000007_000009_000017_000003_000059_000151_000281_000209_001405_000173_003589_007679_029803_053947_068291,
  1_022840_000001_000001_000007_000007_000005_000019_000053_000091_000001_000513_001495_000231_003627_001115_016121_012953_108343,
  1_022845_000001_000003_000001_000013_000017_000003_000035_000035_000211_000481_002029_001035_003131_005653_018097_010735_102453,
  1_022848_000001_000003_000001_000011_000029_000007_000121_000135_000051_000837_000681_001497_007435_002215_026527_033029_093241,
  1_022857_000001_000003_000003_000015_000029_000043_000017_000243_000195_000315_000499_003801_005691_012119_004061_051769_080497,
  1_022877_000001_000001_000003_000001_000011_000001_000113_000011_000387_000579_000275_002995_000895_011859_004017_001543_011853,
  1_022882_000001_000001_000007_000009_000031_000027_000063_000217_000097_000275_000435_001355_005205_006587_032589_046485_103587,
  1_022887_000001_000003_000007_000003_000007_000019_000051_000041_000081_000261_001909_001475_000425_003173_005679_034701_034977,
  1_022894_000001_000001_000007_000003_000027_000015_000035_000049_000387_000471_001997_003643_002701_011853_021311_036027_104357,
  1_022912_000001_000003_000001_000009_000005_000047_000073_000163_000309_000891_000229_002433_006715_006721_025233_037043_029367,
  1_022930_000001_000001_000001_000007_000027_000015_000009_000185_000421_000597_000565_000143_001531_015585_017057_054309_082915]

def dirRows17_1_1 : List Nat := [
  1_022936_000001_000001_000007_000001_000005_000043_000087_000061_000121_000341_000025_003795_007161_011985_032197_000789_069543,
  1_022939_000001_000003_000005_000013_000029_000039_000081_000039_000263_000729_001833_000365_001073_009869_001845_052621_000005,
  1_022957_000001_000001_000007_000007_000005_000033_000117_000011_000371_000161_001303_000629_002285_005827_032355_043359_115595,
  1_022970_000001_000003_000005_000005_000013_000057_000063_000009_000243_000533_000173_002197_000717_013441_022131_017783_003319,
  1_022980_000001_000001_000007_000011_000015_000031_000087_000255_000183_000273_000805_002347_005881_015401_000273_017397_041827,
  1_022984_000001_000003_000001_000013_000007_000017_000121_000049_000047_000121_000333_003629_005337_004117_002735_036581_061345,
  1_022992_000001_000003_000003_000011_000009_000007_000025_000223_000379_000119_000385_001217_004803_002947_030665_007733_077893,
  1_022998_000001_000003_000003_000007_000031_000035_000127_000097_000005_000373_000007_003035_000843_005991_009265_034289_042785,
  1_023001_000001_000003_000007_000003_000027_000019_000095_000253_000349_000871_000807_000413_005847_010467_004277_012429_075773,
  1_023044_000001_000003_000003_000007_000021_000001_000079_000089_000219_000505_000041_000505_005159_012839_003317_049873_073705,
  1_023061_000001_000003_000001_000007_000021_000043_000121_000113_000477_000559_001831_003759_003315_006367_007149_016395_044703,
  1_023062_000001_000001_000001_000007_000013_000053_000035_000053_000489_000975_000631_000863_003067_001905_021351_014705_080041,
  1_023071_000001_000001_000001_000005_000013_000027_000121_000065_000351_000123_001731_000367_008061_005229_008537_020897_130373,
  1_023075_000001_000001_000005_000011_000015_000063_000101_000107_000105_000619_001771_003549_007191_009083_016827_029639_034219,
  1_023089_000001_000003_000001_000009_000015_000013_000087_000157_000379_000433_000217_000815_005079_001797_026707_035165_092305,
  1_023090_000001_000001_000005_000013_000027_000035_000031_000065_000313_000629_000375_001391_005373_003497_007311_023105_045293,
  1_023096_000001_000003_000001_000003_000005_000039_000091_000037_000401_000419_000949_002431_003685_006671_020789_008597_044215,
  1_023101_000001_000001_000007_000011_000007_000015_000003_000181_000363_000913_000309_002009_003805_006651_027677_037711_040813,
  1_023114_000001_000003_000005_000005_000017_000011_000047_000009_000027_000459_000773_001403_007069_012651_008163_042425_126697,
  1_023121_000001_000003_000001_000003_000011_000021_000065_000103_000405_000843_000059_003653_001759_005265_000401_058019_124999,
  1_023124_000001_000001_000003_000007_000011_000025_000061_000211_000199_000849_001835_001181_005003_003873_023743_045451_054901,
  1_023127_000001_000003_000005_000003_000029_000025_000043_000199_000481_000991_000699_003937_007601_001253_024399_006625_093917,
  1_023128_000001_000001_000007_000003_000029_000033_000033_000151_000003_000825_000743_000773_007825_008157_022121_050095_016435,
  1_023137_000001_000003_000001_000001_000027_000015_000081_000151_000271_000167_001755_001289_007473_008525_012525_063139_048787,
  1_023138_000001_000001_000007_000013_000027_000033_000087_000125_000211_000631_000149_003451_000643_006975_002659_012629_033187,
  1_023150_000001_000001_000003_000003_000005_000049_000099_000099_000085_000647_000351_002829_007005_007283_005857_046157_052061,
  1_023155_000001_000001_000003_000005_000011_000037_000043_000129_000021_000639_000187_002279_008189_012877_028707_007133_093639,
  1_023168_000001_000001_000003_000007_000019_000013_000035_000051_000077_000811_001553_002769_000763_004965_004643_037639_044229,
  1_023173_000001_000003_000005_000015_000011_000029_000103_000203_000435_001017_000531_001453_001407_006569_000619_052103_045213,
  1_023174_000001_000001_000007_000005_000025_000025_000047_000229_000201_000843_000473_002637_002265_004627_020013_041217_076095,
  1_023195_000001_000003_000003_000015_000023_000061_000109_000031_000057_000595_001303_003915_000067_008205_003553_009543_103385,
  1_023202_000001_000001_000003_000003_000021_000019_000021_000041_000137_000905_002045_000491_001783_000151_020963_038009_000735,
  1_023225_000001_000001_000007_000011_000013_000033_000095_000251_000179_000211_001687_003189_006213_003905_002117_015153_004855,
  1_023226_000001_000001_000005_000003_000019_000009_000067_000243_000023_000611_001007_001317_007303_011065_021157_056677_081683,
  1_023239_000001_000001_000003_000005_000019_000041_000063_000129_000233_000015_000037_001445_001095_011309_030181_049199_085113,
  1_023253_000001_000003_000007_000001_000021_000053_000083_000079_000155_000379_000773_001823_001003_002787_031107_036115_040987,
  1_023263_000001_000003_000003_000005_000003_000019_000007_000247_000417_000573_000407_003577_006079_010275_029791_035149_102565,
  1_023264_000001_000003_000003_000009_000021_000049_000057_000223_000125_000671_000655_002995_005849_005355_021171_054857_114841,
  1_023281_000001_000003_000007_000003_000027_000023_000125_000103_000485_000955_000963_001865_002321_002263_032497_047973_122111,
  1_023282_000001_000001_000003_000015_000003_000001_000037_000019_000287_000165_001717_000851_003619_013623_024295_048253_013143,
  1_023288_000001_000001_000007_000009_000013_000059_000069_000097_000113_000163_000871_001795_002719_013675_011767_023687_065841,
  1_023294_000001_000001_000005_000003_000021_000031_000041_000115_000469_000177_000137_002129_001385_010835_016471_059411_030795,
  1_023302_000001_000001_000007_000007_000013_000045_000073_000119_000457_000673_001481_003735_002675_011413_009069_034741_008757,
  1_023311_000001_000003_000005_000003_000015_000009_000011_000191_000499_000051_001963_003957_001341_007129_013491_065369_004339,
  1_023320_000001_000003_000007_000001_000005_000045_000103_000209_000183_000205_000525_002417_000847_010801_010699_016723_036421,
  1_023325_000001_000003_000007_000013_000003_000057_000037_000075_000299_000359_002017_000125_006737_004859_018443_020765_040319,
  1_023356_000001_000001_000003_000005_000005_000017_000043_000141_000031_000141_001019_001685_006831_009433_031245_029227_064083,
  1_023374_000001_000003_000001_000013_000025_000047_000107_000069_000459_000595_001759_003391_001531_015197_025975_016971_070861,
  1_023388_000001_000001_000003_000011_000003_000053_000063_000211_000069_000469_001407_001435_002763_000917_019943_016591_097101,
  1_023402_000001_000003_000005_000013_000025_000041_000039_000061_000319_000809_001109_000169_003101_008801_021697_050759_130985,
  1_023415_000001_000003_000001_000009_000023_000001_000011_000249_000243_000605_001419_000269_001601_002063_005365_038077_106161,
  1_023421_000001_000001_000007_000007_000019_000055_000097_000155_000477_000845_000061_000263_001337_008857_031611_044417_043111,
  1_023426_000001_000003_000003_000015_000007_000063_000045_000239_000291_000279_001875_003769_001571_015857_013335_017209_034399,
  1_023443_000001_000001_000007_000011_000019_000019_000069_000111_000217_000927_001643_001077_004763_015893_017491_039737_010705,
  1_023446_000001_000001_000005_000011_000003_000003_000031_000199_000109_000403_000973_003833_002729_007285_026743_053915_096203,
  1_023455_000001_000003_000003_000011_000009_000007_000019_000145_000495_000805_000381_000919_001323_004343_015887_005163_068267,
  1_023461_000001_000001_000003_000011_000015_000031_000027_000201_000251_000279_001377_001313_007143_009731_010451_063431_031307,
  1_023468_000001_000001_000007_000001_000001_000055_000035_000249_000133_000645_000425_000279_006401_011687_000751_000947_021791,
  1_023471_000001_000003_000005_000009_000005_000043_000089_000031_000419_000573_001087_002197_003451_002393_006569_004859_036607,
  1_023485_000001_000003_000005_000015_000025_000051_000011_000149_000483_000789_000661_000967_003537_015511_026587_029861_120337,
  1_023486_000001_000003_000005_000013_000021_000039_000075_000111_000057_000321_001591_000381_007399_010807_026651_062489_078341,
  1_023488_000001_000003_000001_000013_000001_000001_000049_000137_000193_000967_000805_000221_000803_011381_027803_051013_010475,
  1_023498_000001_000003_000007_000005_000003_000013_000047_000195_000123_000753_000397_001203_000981_012863_020845_036155_019055,
  1_023500_000001_000001_000001_000009_000009_000011_000053_000203_000003_000163_001537_002061_000941_012629_016053_034881_031489,
  1_023515_000001_000001_000001_000015_000005_000023_000051_000197_000459_000021_001989_002529_004267_001505_008951_015777_020493,
  1_023521_000001_000001_000007_000003_000031_000055_000009_000055_000217_000695_001563_004077_003207_007029_010881_039581_082511,
  1_023527_000001_000003_000001_000005_000001_000011_000081_000001_000505_000631_001093_003655_002085_007349_005009_049381_030527,
  1_023534_000001_000001_000007_000001_000027_000051_000025_000235_000213_000059_000611_003883_002909_006411_019605_049001_114529,
  1_023546_000001_000003_000005_000003_000025_000029_000019_000137_000199_000681_001625_002711_004873_014677_009767_030441_054673,
  1_023559_000001_000001_000001_000009_000027_000043_000109_000161_000139_000675_000741_002839_001425_005701_019897_012787_033069,
  1_023560_000001_000003_000005_000011_000021_000019_000077_000107_000197_000591_001899_001311_003347_006369_026891_003771_032455,
  1_023566_000001_000001_000007_000015_000031_000013_000109_000069_000207_000349_000249_000971_007891_010919_031579_038453_124601,
  1_023584_000001_000003_000005_000005_000027_000061_000067_000193_000053_000259_001729_004033_002637_008217_022351_004001_118527,
  1_023587_000001_000001_000003_000005_000009_000045_000055_000073_000189_000131_001947_001889_000837_004085_010393_064359_001037,
  1_023594_000001_000003_000007_000003_000013_000051_000055_000037_000335_000939_000035_000461_005057_002595_003305_058823_003941,
  1_023602_000001_000001_000007_000011_000007_000003_000121_000139_000241_000477_000615_002707_005391_007611_011563_041083_016719,
  1_023607_000001_000003_000003_000015_000027_000055_000013_000221_000195_000543_000215_004035_001647_008111_026425_043571_079893,
  1_023616_000001_000001_000001_000005_000031_000005_000035_000145_000481_000339_001951_002155_001309_009851_031505_037371_021247,
  1_023621_000001_000001_000007_000009_000007_000005_000073_000119_000003_000741_001351_002855_002207_001465_012047_013507_129173,
  1_023631_000001_000001_000007_000013_000005_000057_000119_000063_000367_000327_001257_003191_006929_009593_016565_054397_100305,
  1_023634_000001_000003_000001_000011_000009_000001_000085_000053_000065_000945_000017_001963_004819_016173_011669_053579_033701,
  1_023636_000001_000001_000003_000015_000025_000027_000003_000025_000023_000429_000197_002717_006107_006719_012457_031793_078647,
  1_023649_000001_000001_000003_000001_000007_000063_000111_000235_000299_000091_000369_001423_007083_004229_018535_033793_019943,
  1_023652_000001_000001_000007_000013_000009_000011_000123_000009_000169_000895_001989_001047_006139_011773_019381_009593_014809,
  1_023679_000001_000003_000001_000003_000029_000031_000063_000091_000059_000391_001695_002459_003301_005615_003425_008029_016069,
  1_023686_000001_000001_000007_000001_000025_000025_000079_000049_000131_000695_000987_002911_001109_008237_018227_037287_022443,
  1_023697_000001_000003_000003_000003_000025_000021_000033_000207_000187_000381_000129_000445_002967_005119_018777_014849_097115,
  1_023703_000001_000001_000007_000013_000019_000009_000093_000185_000391_000579_001509_003245_003921_009473_004795_006685_049549,
  1_023714_000001_000001_000005_000011_000001_000049_000057_000127_000363_000811_001383_002869_007625_015177_002581_064253_053677,
  1_023719_000001_000001_000007_000003_000007_000027_000073_000187_000031_001011_001013_003269_006625_005001_020805_013331_093725,
  1_023723_000001_000003_000007_000001_000023_000061_000123_000009_000141_000113_001009_003713_004947_009929_024125_001101_104249,
  1_023726_000001_000003_000007_000003_000023_000017_000025_000187_000189_000875_001435_000163_004197_006619_029031_023117_045347,
  1_023728_000001_000001_000005_000007_000011_000017_000009_000055_000117_000223_000417_003993_001843_005817_020435_056705_098337,
  1_023733_000001_000001_000007_000003_000021_000059_000003_000077_000297_000061_000407_001603_003209_001611_030185_050275_056139,
  1_023740_000001_000001_000001_000005_000031_000003_000101_000167_000367_000543_000339_001885_007855_009989_030969_006735_108123,
  1_023751_000001_000001_000003_000009_000027_000063_000009_000079_000335_000351_000673_003107_003955_001799_016879_057631_109073,
  1_023755_000001_000001_000001_000003_000027_000017_000107_000115_000155_000371_000379_002837_006213_002663_001101_000451_069517,
  1_023765_000001_000001_000003_000009_000013_000003_000055_000009_000449_000043_001011_003281_005311_000223_010715_006639_079949,
  1_023766_000001_000003_000003_000011_000023_000009_000043_000185_000271_001005_001041_002633_000377_004247_010417_051903_019239,
  1_023769_000001_000003_000001_000009_000015_000039_000115_000233_000033_000425_001979_000583_001901_008943_001527_056065_050159]

def dirRows17_1_2 : List Nat := [
  1_023779_000001_000001_000003_000001_000013_000001_000105_000149_000013_000625_000671_001811_003701_000241_027357_025835_127265,
  1_023794_000001_000003_000001_000009_000011_000023_000107_000197_000021_000589_001065_002591_001163_015013_008931_006355_087079,
  1_023796_000001_000003_000005_000003_000017_000005_000121_000061_000099_000987_002033_002237_002299_014689_019785_009599_101035,
  1_023803_000001_000001_000001_000001_000017_000025_000005_000097_000055_000075_001419_002793_007215_003185_007029_023023_089089,
  1_023813_000001_000003_000003_000003_000011_000057_000103_000191_000405_000463_001421_000253_006069_010905_018193_000719_017337,
  1_023820_000001_000003_000005_000011_000023_000037_000039_000169_000295_000527_001671_003913_006057_000689_027719_047245_095895,
  1_023841_000001_000003_000007_000005_000013_000009_000043_000189_000411_000155_000559_003701_001623_002401_010359_022675_041897,
  1_023853_000001_000001_000001_000011_000017_000055_000047_000101_000357_000669_000857_002745_006425_011839_013095_010757_052383,
  1_023861_000001_000001_000007_000005_000011_000013_000053_000151_000093_000455_000133_003353_001417_007917_012913_002615_034281,
  1_023862_000001_000001_000003_000005_000029_000057_000043_000035_000203_000423_000311_003133_001757_001291_002019_003115_126939,
  1_023873_000001_000001_000003_000011_000009_000043_000119_000095_000135_000351_001865_002821_000717_006275_019713_042315_097935,
  1_023876_000001_000003_000007_000007_000031_000051_000007_000029_000405_000031_001765_003231_001315_001307_026469_062033_035619,
  1_023897_000001_000001_000005_000007_000005_000017_000049_000137_000501_000631_001401_002851_006971_014721_004329_026483_120007,
  1_023898_000001_000001_000005_000013_000021_000019_000095_000093_000125_000331_001797_001653_001891_011081_030989_024671_095421,
  1_023903_000001_000003_000003_000011_000013_000029_000061_000157_000165_000039_000661_000089_000637_001397_012561_062399_129107,
  1_023904_000001_000003_000001_000015_000013_000019_000005_000115_000345_000903_000531_004069_006775_007433_000569_021779_013271,
  1_023910_000001_000003_000003_000009_000005_000053_000017_000115_000067_000939_001907_003979_004311_003573_000857_034931_112397,
  1_023931_000001_000003_000007_000011_000009_000047_000083_000085_000277_000219_001701_003013_003037_003473_003797_040713_118573,
  1_023933_000001_000001_000003_000013_000025_000033_000117_000115_000179_000119_000487_003213_002873_000017_020865_020043_064381,
  1_023934_000001_000001_000001_000003_000001_000045_000073_000103_000075_000579_000981_002449_002141_008697_022995_059693_104461,
  1_023943_000001_000003_000001_000001_000029_000009_000009_000201_000055_000389_001069_002057_004149_009217_010753_007889_095849,
  1_023952_000001_000003_000007_000009_000027_000039_000019_000223_000007_000253_000055_000503_003339_006049_032603_034807_115403,
  1_023955_000001_000001_000005_000003_000013_000021_000067_000087_000205_000309_001371_001579_000281_016135_028403_025951_024109,
  1_023962_000001_000003_000001_000003_000017_000021_000049_000077_000393_000943_001701_002661_005173_012875_002731_040531_019301,
  1_023971_000001_000003_000001_000005_000023_000029_000061_000161_000373_000389_001699_000359_002513_004717_030397_024395_020881,
  1_023978_000001_000003_000005_000005_000029_000003_000115_000251_000277_000487_000007_003301_007945_014233_020497_062035_021537,
  1_023998_000001_000001_000001_000009_000007_000059_000023_000085_000367_000109_001761_004011_006535_008263_002081_063647_069807,
  1_024003_000001_000001_000007_000011_000021_000041_000029_000219_000271_000617_000929_000407_002899_014299_007645_044815_058817,
  1_024009_000001_000003_000005_000007_000011_000029_000119_000033_000261_000571_002013_003327_002181_012767_000093_002437_076533,
  1_024017_000001_000001_000007_000013_000017_000039_000055_000203_000261_000917_000967_003651_007235_013751_014439_007591_096553,
  1_024045_000001_000001_000001_000001_000011_000039_000019_000021_000125_000093_001773_001155_006213_007173_009057_006219_004643,
  1_024046_000001_000003_000001_000005_000001_000031_000055_000143_000425_000539_000061_003377_007647_000257_015007_024511_008707,
  1_024060_000001_000003_000003_000011_000027_000051_000103_000197_000427_000139_000181_001169_003123_011803_005285_001321_062267,
  1_024064_000001_000003_000005_000009_000011_000003_000013_000149_000197_000037_000031_000927_003313_016149_014209_060177_046525,
  1_024076_000001_000001_000005_000013_000015_000029_000103_000049_000355_000797_001253_001833_000621_003877_009981_049207_091035,
  1_024079_000001_000001_000003_000003_000013_000019_000027_000051_000151_000275_000035_003755_007511_014197_026141_043765_104327,
  1_024087_000001_000003_000005_000015_000023_000047_000101_000213_000097_000957_000831_001533_007913_015763_029717_060425_038559,
  1_024094_000001_000001_000007_000009_000029_000031_000049_000245_000361_000299_000151_002969_001487_001761_011697_004043_100909,
  1_024100_000001_000001_000001_000003_000017_000049_000099_000159_000003_000525_001527_003435_005113_000459_013341_054103_085813,
  1_024118_000001_000003_000001_000001_000005_000059_000035_000075_000107_000091_001621_003261_000619_003271_010813_029857_001547,
  1_024121_000001_000001_000005_000009_000009_000033_000085_000245_000039_000879_001621_002587_003825_012939_030113_024611_068491,
  1_024132_000001_000003_000001_000003_000009_000039_000093_000241_000307_000237_000003_001763_007729_009257_031911_032591_077333,
  1_024147_000001_000003_000001_000003_000027_000007_000051_000121_000317_000361_001027_000095_007035_003097_021007_038311_088287,
  1_024165_000001_000003_000007_000003_000019_000003_000111_000115_000339_000793_001571_003101_001911_014929_012841_045871_119905,
  1_024172_000001_000001_000005_000007_000031_000061_000037_000143_000279_000941_001215_002411_007617_001657_010189_019139_006307,
  1_024177_000001_000001_000003_000009_000021_000035_000013_000157_000187_000079_000689_001085_000037_004549_005901_015321_061627,
  1_024184_000001_000003_000001_000013_000015_000039_000021_000231_000039_000327_000801_002321_000587_001877_003489_054467_095773,
  1_024187_000001_000001_000005_000007_000001_000009_000053_000001_000243_000365_000789_003833_000317_010697_026567_065187_022507,
  1_024213_000001_000003_000003_000007_000009_000041_000031_000135_000425_000939_000015_002043_006593_007651_025467_062549_035847,
  1_024217_000001_000001_000001_000007_000015_000023_000019_000057_000421_000025_001037_003055_006173_012451_000485_054567_109561,
  1_024223_000001_000003_000005_000001_000003_000029_000067_000233_000157_000677_001711_000513_004673_002895_001983_031075_001861,
  1_024230_000001_000001_000001_000001_000007_000039_000115_000251_000275_000791_000015_001685_006835_014685_012607_028213_121475,
  1_024234_000001_000001_000005_000005_000013_000011_000103_000093_000489_000709_001339_002407_001663_010195_003135_015531_088427,
  1_024241_000001_000001_000007_000007_000017_000001_000123_000143_000031_000721_001739_002273_003785_010261_014741_052573_113677,
  1_024248_000001_000003_000007_000003_000009_000021_000077_000013_000241_000429_000165_003399_007543_002633_021129_013537_084473,
  1_024259_000001_000001_000001_000011_000021_000033_000125_000123_000189_000337_000163_003727_002101_014113_001719_046017_068601,
  1_024262_000001_000001_000007_000009_000009_000053_000101_000111_000125_000605_001419_003901_001769_004585_020063_020857_021901,
  1_024271_000001_000003_000007_000011_000001_000019_000051_000007_000457_000119_000871_003847_000057_011437_028763_058831_000675,
  1_024279_000001_000003_000001_000015_000025_000063_000069_000025_000405_000823_001701_002441_007561_008679_031643_029325_025563,
  1_024286_000001_000001_000003_000009_000015_000005_000089_000013_000073_000951_000959_002693_004565_013095_000991_012419_008267,
  1_024289_000001_000001_000007_000001_000015_000001_000119_000223_000213_000585_001047_002623_004141_002043_001583_059155_005133,
  1_024295_000001_000003_000003_000003_000017_000037_000081_000233_000087_000843_001597_001251_004713_010813_024357_048499_084465,
  1_024296_000001_000001_000001_000001_000011_000055_000125_000005_000255_000809_000543_002351_007079_007801_029247_023937_097405,
  1_024299_000001_000003_000003_000005_000017_000055_000087_000245_000371_000679_000943_000655_005857_000261_028229_022519_035191,
  1_024314_000001_000001_000007_000015_000009_000049_000025_000155_000013_000893_001303_002317_002903_015601_001433_020397_070125,
  1_024336_000001_000003_000005_000003_000011_000047_000099_000063_000253_000095_001023_000397_004307_004771_017027_019833_018269,
  1_024342_000001_000003_000003_000007_000025_000017_000069_000119_000475_000575_001637_003785_000649_011557_022457_038633_096153,
  1_024346_000001_000001_000001_000005_000031_000055_000085_000083_000307_000201_001543_000727_000977_015779_021907_031025_038969,
  1_024357_000001_000003_000005_000001_000007_000053_000107_000239_000341_000237_001567_002717_003197_012419_023733_042119_086619,
  1_024367_000001_000001_000005_000013_000003_000007_000105_000095_000201_000953_000781_002043_005263_013427_010303_060027_019297,
  1_024370_000001_000001_000005_000015_000025_000051_000005_000077_000165_000297_001281_001635_004139_011569_032325_023135_027013,
  1_024372_000001_000001_000003_000009_000003_000059_000107_000137_000251_000715_001477_000511_005629_012205_007541_062559_004253,
  1_024387_000001_000001_000007_000011_000031_000029_000007_000251_000119_000547_001179_003063_001625_008941_030515_013601_072741,
  1_024389_000001_000003_000007_000013_000027_000043_000031_000043_000465_000355_001063_002305_001425_011963_027327_053335_127517,
  1_024402_000001_000003_000001_000003_000021_000017_000053_000171_000269_000783_000349_001879_000575_013537_016931_061171_023499,
  1_024414_000001_000003_000005_000003_000011_000005_000121_000227_000237_000841_000431_003209_003241_006071_023465_039533_102391,
  1_024420_000001_000003_000005_000011_000009_000001_000059_000143_000181_000869_001859_001543_006419_013305_029075_028051_105799,
  1_024435_000001_000001_000007_000013_000031_000001_000105_000169_000067_000693_001667_002181_004127_004605_003701_036467_019631,
  1_024437_000001_000001_000007_000005_000031_000015_000119_000161_000055_000549_001195_004051_001923_002497_008289_060393_096181,
  1_024442_000001_000001_000003_000003_000005_000043_000013_000123_000469_000603_002047_002347_000815_003457_007503_025261_071951,
  1_024444_000001_000001_000007_000003_000013_000025_000085_000141_000497_000405_000957_001407_002075_012445_006675_009993_040429,
  1_024447_000001_000001_000005_000013_000029_000043_000099_000113_000307_001003_000859_000723_007513_012249_012653_057685_089551,
  1_024468_000001_000003_000007_000003_000011_000003_000009_000141_000501_000113_000069_002285_004525_009049_024765_011585_053787,
  1_024475_000001_000001_000003_000001_000025_000041_000103_000159_000215_000871_000077_001849_000609_015877_032515_022931_011933,
  1_024484_000001_000001_000005_000011_000003_000027_000027_000111_000479_000861_001041_003777_004443_003095_030379_006293_030823,
  1_024493_000001_000003_000005_000005_000027_000045_000009_000025_000451_000845_001153_000897_000325_015679_030151_037695_054593,
  1_024494_000001_000003_000007_000001_000015_000047_000087_000135_000087_000567_000221_003173_000769_008173_002957_051287_020961,
  1_024496_000001_000003_000001_000009_000003_000033_000001_000071_000147_000983_001485_003531_000213_002353_028269_049353_088343,
  1_024514_000001_000001_000003_000011_000011_000063_000109_000255_000035_000127_001777_000791_001379_009539_004915_021593_098901,
  1_024519_000001_000001_000007_000005_000003_000047_000093_000219_000381_000963_000359_002461_007629_002803_017345_054311_079057,
  1_024533_000001_000003_000005_000013_000013_000021_000001_000065_000455_000203_000029_003717_004495_001285_025289_038597_042431,
  1_024538_000001_000001_000003_000003_000027_000057_000007_000171_000065_000469_001921_003855_001637_005517_014907_048239_117573,
  1_024559_000001_000003_000005_000001_000011_000035_000105_000251_000019_000219_001191_002177_007885_008399_030527_061415_122215,
  1_024568_000001_000003_000005_000005_000021_000025_000059_000193_000509_000147_001805_000561_003505_009639_014221_000031_099261,
  1_024573_000001_000001_000005_000013_000031_000023_000035_000143_000367_000385_001335_002497_003573_008113_016661_016147_008763,
  1_024577_000001_000001_000007_000013_000015_000027_000035_000015_000007_000539_000633_001145_002267_011527_020975_016689_058227,
  1_024587_000001_000001_000001_000015_000009_000011_000051_000121_000381_000331_001445_000187_000519_015827_027611_032891_113671,
  1_024592_000001_000003_000001_000005_000019_000003_000077_000067_000107_000105_001025_003229_006869_005717_004227_028489_059759,
  1_024601_000001_000001_000005_000015_000025_000023_000007_000025_000103_000733_000525_000453_006467_002901_007197_033267_068177,
  1_024602_000001_000001_000005_000007_000027_000027_000041_000093_000449_000733_000571_000411_001709_009557_000549_005925_024123]

def dirRows17_1_3 : List Nat := [
  1_024608_000001_000001_000007_000005_000031_000057_000119_000227_000105_000533_000717_003357_002495_006467_007211_038169_044603,
  1_024645_000001_000001_000005_000007_000029_000009_000125_000241_000471_000571_001271_002911_008087_005067_031139_039681_028579,
  1_024650_000001_000003_000005_000011_000025_000053_000109_000035_000183_000109_001961_001681_007773_006935_028049_037279_096829,
  1_024657_000001_000001_000001_000011_000001_000017_000047_000245_000231_000747_001395_001635_005129_003165_000627_034463_038967,
  1_024664_000001_000003_000005_000001_000009_000041_000025_000215_000251_000525_001399_003405_007399_011041_005599_051167_038697,
  1_024670_000001_000003_000003_000013_000011_000015_000121_000095_000139_000611_000633_003941_002619_015123_028535_064823_017527,
  1_024673_000001_000003_000007_000013_000021_000053_000065_000175_000081_000005_000699_001525_007397_002465_004479_058225_026387,
  1_024676_000001_000001_000005_000007_000009_000031_000031_000149_000359_000613_000397_000153_004861_008195_022969_026003_124423,
  1_024680_000001_000003_000001_000013_000027_000017_000107_000027_000019_000013_001481_000573_007701_006273_030255_016125_011809,
  1_024686_000001_000003_000001_000009_000015_000001_000045_000105_000287_000901_000667_003197_003493_012259_001511_063361_094257,
  1_024700_000001_000003_000001_000003_000025_000053_000019_000087_000365_000585_001569_001731_003747_011985_022673_017767_113779,
  1_024704_000001_000003_000003_000009_000007_000021_000103_000201_000501_000149_001939_003111_004739_008389_027127_055889_054487,
  1_024714_000001_000003_000005_000007_000025_000053_000075_000057_000019_000505_000849_002631_006999_011269_024541_017695_097671,
  1_024728_000001_000001_000007_000015_000005_000051_000123_000093_000445_000379_001729_002747_005821_010779_029335_057419_109339,
  1_024731_000001_000001_000007_000003_000007_000057_000117_000065_000297_000891_000487_001535_002361_010457_030759_034571_129949,
  1_024733_000001_000003_000005_000005_000017_000051_000027_000103_000055_000925_000947_001237_001629_012687_014775_049627_100939,
  1_024747_000001_000003_000003_000015_000001_000011_000075_000177_000399_000055_001705_001165_007525_008909_013071_060703_011561,
  1_024749_000001_000001_000001_000007_000013_000029_000023_000065_000279_000853_000637_003947_004099_006465_007061_050417_035015,
  1_024750_000001_000001_000003_000003_000015_000011_000111_000169_000135_000279_001941_003035_003027_006813_013363_020387_003257,
  1_024764_000001_000003_000003_000011_000003_000005_000095_000181_000405_000313_000039_001503_002443_003221_017021_023485_043909,
  1_024782_000001_000001_000001_000003_000017_000063_000027_000247_000441_000533_000449_003845_004021_014269_031477_007013_037473,
  1_024784_000001_000001_000005_000013_000029_000039_000041_000095_000417_000021_000685_000609_005787_013145_032677_006121_050919,
  1_024793_000001_000001_000005_000003_000017_000005_000093_000143_000171_000681_001143_002875_000805_015823_029649_063327_012041,
  1_024794_000001_000001_000001_000011_000003_000053_000123_000105_000059_000485_001799_002939_000657_002485_029563_036221_089095,
  1_024810_000001_000001_000005_000005_000015_000013_000127_000087_000211_000579_000175_000793_006895_009051_017681_028831_031783,
  1_024817_000001_000003_000007_000005_000011_000037_000009_000219_000453_000697_000139_000335_006411_008495_004203_029065_114837,
  1_024820_000001_000001_000003_000005_000031_000025_000089_000215_000249_000271_001731_003133_003947_010227_009679_051303_082833,
  1_024823_000001_000003_000005_000001_000031_000015_000007_000131_000369_000757_001963_003223_000035_013967_031807_005093_113743,
  1_024832_000001_000001_000007_000003_000015_000023_000021_000173_000295_000929_001137_003943_001985_013015_008523_059117_000127,
  1_024855_000001_000003_000007_000001_000031_000001_000115_000229_000345_000859_001757_001835_007491_004545_001483_040149_122321,
  1_024859_000001_000001_000001_000003_000013_000005_000003_000133_000177_000047_001515_000017_005663_003185_002775_031389_037409,
  1_024862_000001_000001_000003_000003_000031_000003_000043_000137_000185_000803_000709_000391_003513_008117_032593_046593_061037,
  1_024877_000001_000001_000001_000007_000029_000027_000013_000035_000061_000961_000777_002725_007379_007053_021781_060285_049221,
  1_024890_000001_000003_000007_000015_000007_000007_000015_000123_000109_000097_000361_000791_004773_008111_004319_013981_092505,
  1_024900_000001_000001_000003_000011_000021_000033_000113_000221_000453_000981_000341_004041_005129_005981_011051_017243_019023,
  1_024904_000001_000003_000001_000001_000019_000007_000075_000213_000467_000221_001829_001275_005729_006843_023855_044805_089269,
  1_024909_000001_000001_000003_000007_000005_000029_000039_000125_000147_000329_001485_002793_002329_014979_018395_037951_058699,
  1_024910_000001_000003_000001_000003_000011_000037_000117_000189_000103_000381_000039_000031_005205_005601_017127_049073_121417,
  1_024915_000001_000003_000003_000013_000023_000049_000057_000187_000441_000189_000349_002559_003313_001321_007731_057309_080195,
  1_024922_000001_000003_000007_000001_000017_000009_000021_000015_000447_000333_000959_003471_005301_008573_009761_023183_057997,
  1_024937_000001_000003_000001_000009_000019_000001_000101_000071_000325_000309_000085_002097_008003_012249_001887_002097_068375,
  1_024945_000001_000001_000007_000007_000011_000039_000085_000241_000293_000205_000387_001539_006583_001395_008869_048843_049983,
  1_024962_000001_000003_000007_000013_000011_000023_000083_000125_000055_000429_000169_001893_004657_000643_003405_009943_128753,
  1_024964_000001_000001_000003_000011_000019_000043_000013_000171_000495_000117_000437_003697_006723_006199_001859_039637_111499,
  1_024991_000001_000001_000001_000005_000001_000031_000083_000199_000129_000941_001637_001997_005011_014957_032427_060797_004989,
  1_024992_000001_000003_000003_000003_000005_000061_000033_000225_000315_000157_001709_000807_007809_011063_000319_020901_073599,
  1_024995_000001_000001_000007_000003_000027_000003_000001_000173_000125_000769_001203_003357_004899_013115_007081_042459_018525,
  1_025001_000001_000001_000007_000009_000009_000027_000043_000115_000229_000867_000661_001825_002883_004285_022393_065141_024699,
  1_025009_000001_000001_000003_000007_000005_000009_000093_000047_000033_000823_000309_002977_005791_009177_027645_035683_057455,
  1_025019_000001_000001_000005_000007_000009_000053_000009_000077_000499_001023_000917_000209_007311_000249_000773_018303_041447,
  1_025021_000001_000001_000003_000005_000007_000009_000033_000073_000325_000369_001657_002257_002893_013911_010797_021055_103511,
  1_025029_000001_000003_000001_000003_000021_000031_000125_000029_000149_000513_000979_002271_000989_009541_004179_013215_071369,
  1_025034_000001_000001_000007_000007_000019_000041_000039_000165_000059_000079_000137_003479_003389_006635_021467_051073_020765,
  1_025036_000001_000003_000003_000005_000007_000013_000109_000053_000335_000627_000339_003825_000287_006077_011319_002377_112693,
  1_025039_000001_000003_000003_000001_000003_000057_000009_000047_000437_000717_000563_001219_006191_009081_021533_002651_017275,
  1_025057_000001_000001_000001_000005_000021_000009_000109_000109_000339_000947_001699_001487_006477_012601_012327_039427_080937,
  1_025063_000001_000001_000007_000009_000001_000005_000055_000043_000095_000733_001151_003657_002119_011947_021279_021581_022053,
  1_025064_000001_000003_000005_000011_000007_000009_000097_000149_000055_000523_001911_001389_005343_005533_015439_065313_073421,
  1_025075_000001_000001_000003_000007_000019_000015_000119_000141_000057_000243_000423_000981_001407_012633_020455_053069_098593,
  1_025077_000001_000001_000003_000003_000015_000057_000071_000203_000015_000133_000601_000805_002821_011623_000147_004333_097681,
  1_025084_000001_000001_000005_000007_000017_000061_000015_000251_000053_000699_000105_001195_003979_000041_009077_005145_080057,
  1_025088_000001_000001_000005_000015_000029_000033_000053_000019_000041_000471_001143_000065_005833_008417_017263_035859_045035,
  1_025091_000001_000001_000001_000001_000015_000051_000073_000131_000181_000147_001863_003777_001749_010135_011591_012395_085163,
  1_025105_000001_000003_000001_000009_000023_000063_000083_000199_000087_000499_002025_000863_004665_003941_017647_052463_108615,
  1_025134_000001_000003_000005_000007_000011_000039_000065_000161_000367_000593_000699_001807_007217_005221_022093_044933_006201,
  1_025165_000001_000001_000007_000013_000009_000041_000035_000077_000353_000291_001267_003923_005397_015401_030317_014945_008715,
  1_025183_000001_000003_000001_000015_000011_000003_000029_000025_000505_000945_001425_002297_001133_004675_008069_055115_114177,
  1_025184_000001_000003_000001_000005_000027_000063_000025_000007_000005_000399_000473_001325_007391_005953_027755_065407_089435,
  1_025202_000001_000003_000003_000013_000021_000061_000005_000119_000023_000999_000849_001225_003077_000821_012059_043223_045427,
  1_025204_000001_000003_000007_000013_000001_000005_000093_000173_000181_000453_001449_003823_001713_014737_008891_043643_001983,
  1_025211_000001_000001_000003_000003_000029_000053_000031_000163_000321_000539_001283_000429_003449_015617_004761_021187_120725,
  1_025223_000001_000001_000001_000001_000013_000027_000049_000037_000033_000631_000375_000425_002465_008773_002777_002115_035633,
  1_025224_000001_000003_000005_000003_000025_000025_000027_000201_000063_000259_001571_001143_002325_006773_011941_028897_019719,
  1_025235_000001_000001_000003_000005_000011_000039_000059_000203_000037_000899_000559_002599_004397_012159_029579_051251_083213,
  1_025241_000001_000001_000001_000007_000009_000019_000063_000169_000257_000921_000381_003605_003479_001739_026599_020599_029617,
  1_025253_000001_000001_000001_000009_000007_000029_000123_000035_000419_000963_000855_001903_006199_002727_029811_049279_101673,
  1_025258_000001_000003_000005_000011_000029_000023_000073_000013_000467_000935_000181_003837_008117_011501_018361_026803_099471,
  1_025277_000001_000001_000001_000005_000031_000041_000109_000045_000115_000113_001893_000727_002453_013463_022339_013495_011473,
  1_025278_000001_000001_000005_000009_000005_000031_000109_000145_000511_000243_000057_002219_001601_001821_012787_048239_089645,
  1_025280_000001_000003_000001_000007_000019_000041_000025_000057_000045_000489_001531_003959_002007_014247_013445_001991_114977,
  1_025290_000001_000003_000007_000015_000007_000017_000107_000027_000249_000207_000183_002483_005817_008927_010715_063631_051947,
  1_025295_000001_000003_000001_000003_000013_000021_000057_000113_000171_000885_001335_000783_007575_004443_019497_013827_130727,
  1_025300_000001_000001_000005_000007_000019_000033_000095_000013_000387_000297_001597_000767_007543_016063_010367_051683_119811,
  1_025307_000001_000003_000007_000009_000027_000057_000111_000209_000305_000139_000179_000025_002295_002593_031361_023677_074501,
  1_025319_000001_000003_000007_000003_000021_000063_000097_000189_000003_000693_000209_002227_007169_000009_032575_061521_115155,
  1_025323_000001_000001_000001_000011_000013_000021_000125_000249_000193_000895_000139_001207_005941_005821_006623_007753_080939,
  1_025326_000001_000003_000005_000005_000011_000049_000017_000021_000423_000497_000835_000539_006195_012783_001271_020069_002657,
  1_025333_000001_000001_000007_000015_000013_000039_000083_000191_000077_000095_000661_003627_001853_001349_023109_043583_104121,
  1_025334_000001_000003_000001_000015_000031_000015_000071_000255_000489_000091_000351_000367_000309_006275_018325_051231_052159,
  1_025337_000001_000001_000007_000013_000021_000049_000037_000135_000355_000421_000507_002563_004955_004095_001933_029517_119699,
  1_025348_000001_000001_000001_000001_000027_000041_000015_000161_000475_000635_000863_003773_006015_006197_024261_026271_042375,
  1_025351_000001_000001_000007_000013_000025_000007_000023_000185_000129_000597_001561_003003_002879_015187_004913_024589_012927,
  1_025372_000001_000001_000003_000003_000009_000023_000049_000233_000345_000083_000823_002627_005019_002365_023755_009855_048515,
  1_025381_000001_000003_000001_000001_000011_000007_000117_000213_000027_000923_000375_002597_008173_008935_016487_049283_104569,
  1_025403_000001_000001_000007_000007_000023_000013_000061_000131_000313_000883_000495_001105_006207_001473_021655_051883_000403,
  1_025406_000001_000003_000003_000001_000025_000005_000005_000159_000243_000929_001429_001151_005043_011551_021231_038767_105299,
  1_025431_000001_000003_000007_000007_000015_000037_000049_000219_000067_000147_000873_002391_000455_009565_008977_064759_040347,
  1_025437_000001_000001_000001_000013_000021_000013_000013_000243_000303_000333_000187_003591_000871_002501_030853_005247_048855,
  1_025453_000001_000001_000001_000005_000001_000005_000127_000249_000023_000079_000789_003507_008119_005025_026545_054009_100633,
  1_025459_000001_000003_000003_000011_000003_000031_000027_000115_000423_000309_001805_000169_000789_004081_028139_035355_047991]

def dirRows17_1_4 : List Nat := [
  1_025462_000001_000003_000001_000005_000019_000013_000043_000165_000165_000241_000309_001703_007631_005899_012041_021235_097045,
  1_025466_000001_000003_000001_000013_000015_000049_000029_000199_000093_000611_000077_002681_000191_010215_008115_011895_108687,
  1_025477_000001_000001_000003_000003_000013_000045_000015_000151_000345_000111_001829_001357_006317_005239_026193_046763_073101,
  1_025484_000001_000003_000007_000003_000001_000019_000119_000063_000023_000759_000173_000307_000967_002731_009353_014479_000119,
  1_025495_000001_000003_000005_000015_000005_000021_000127_000021_000419_000575_000991_003465_007365_005711_030657_043513_022447,
  1_025501_000001_000003_000007_000001_000019_000005_000049_000007_000045_000963_001755_003745_004061_004619_009089_059953_100265,
  1_025506_000001_000001_000001_000003_000025_000053_000097_000097_000347_000749_000823_001499_008151_009957_000731_022317_121623,
  1_025511_000001_000003_000005_000005_000019_000003_000121_000127_000313_000457_001737_004065_005295_007957_016373_062085_005711,
  1_025515_000001_000001_000007_000013_000007_000037_000097_000043_000179_000837_000161_000477_005095_004985_000111_058743_024049,
  1_025525_000001_000003_000001_000013_000027_000013_000091_000241_000339_000235_000111_000369_003361_015105_011097_023955_053561,
  1_025529_000001_000003_000005_000003_000009_000017_000103_000133_000309_000683_000071_003329_007229_008763_004165_009649_008529,
  1_025532_000001_000003_000005_000013_000029_000055_000029_000205_000433_001007_001173_000731_005653_000089_018447_037911_065603,
  1_025538_000001_000003_000005_000001_000015_000001_000007_000195_000397_000877_001433_003487_001581_001539_003361_007453_046451,
  1_025549_000001_000001_000005_000013_000023_000001_000047_000245_000019_000859_000681_002971_002531_011393_032765_004595_045213,
  1_025552_000001_000003_000001_000003_000001_000011_000085_000185_000467_000413_000025_003677_000881_001791_014655_044811_050819,
  1_025564_000001_000003_000005_000009_000009_000021_000065_000099_000441_000215_001453_002873_005883_000485_020883_001303_011837,
  1_025567_000001_000003_000003_000005_000009_000037_000087_000211_000247_000535_001163_001785_004219_012559_017419_048201_021725,
  1_025574_000001_000001_000001_000011_000029_000011_000009_000215_000375_000601_000627_002641_006961_006175_010995_049299_102891,
  1_025577_000001_000003_000001_000003_000007_000007_000023_000139_000089_001005_001815_000947_001507_010349_000035_043595_104697,
  1_025583_000001_000001_000005_000013_000029_000047_000077_000255_000341_000333_001211_003473_001303_011237_028371_043283_077617,
  1_025588_000001_000003_000003_000013_000027_000017_000073_000095_000227_000241_001369_000833_006683_002193_000309_064249_006731,
  1_025603_000001_000003_000003_000003_000015_000029_000045_000209_000401_000725_001123_001659_006099_015941_005797_030563_119385,
  1_025610_000001_000001_000001_000001_000007_000055_000095_000151_000351_000373_001131_002357_007535_003899_019047_017879_034623,
  1_025615_000001_000003_000001_000005_000031_000005_000033_000097_000477_000399_001255_001073_001513_011651_002951_031351_102635,
  1_025624_000001_000001_000003_000013_000017_000063_000051_000209_000057_000087_000977_003663_006717_015441_010709_000607_048297,
  1_025636_000001_000001_000005_000001_000009_000029_000001_000105_000343_000019_000977_003401_003873_004259_023057_013071_105771,
  1_025639_000001_000001_000001_000005_000001_000033_000059_000017_000115_000225_000853_003295_000965_012547_026971_050097_054999,
  1_025643_000001_000003_000003_000013_000001_000051_000029_000019_000245_000781_000493_001121_002937_004177_003267_047463_101195,
  1_025645_000001_000003_000007_000005_000003_000051_000025_000131_000451_000997_001809_001583_000355_015383_028159_039141_109379,
  1_025648_000001_000001_000005_000007_000003_000019_000075_000103_000401_000115_001627_000423_002485_007281_006177_054677_031499,
  1_025671_000001_000001_000001_000011_000023_000007_000057_000121_000005_000921_001191_001779_001979_003427_025617_019423_073835,
  1_025678_000001_000003_000003_000011_000017_000051_000015_000163_000265_000665_001399_001977_003097_007109_014741_024291_079239,
  1_025689_000001_000001_000007_000003_000025_000061_000069_000077_000341_000023_000713_002879_008075_014855_009691_058241_113277,
  1_025708_000001_000003_000007_000009_000027_000043_000095_000011_000239_000445_000951_003869_001049_006493_009569_009285_029183,
  1_025716_000001_000001_000003_000001_000001_000023_000027_000101_000337_000171_001977_003181_002693_008591_032309_024909_106535,
  1_025725_000001_000001_000001_000007_000023_000059_000079_000115_000049_000351_000871_001209_001045_005985_028427_023047_113571,
  1_025730_000001_000001_000007_000013_000027_000003_000035_000007_000319_000503_000977_003747_004859_016315_030375_025999_024341,
  1_025739_000001_000003_000003_000007_000023_000043_000067_000021_000399_000349_001541_002991_005781_014501_005609_065093_012789,
  1_025747_000001_000003_000001_000011_000005_000021_000017_000157_000311_000663_000469_004033_001557_007569_031163_014079_127771,
  1_025753_000001_000001_000007_000015_000015_000031_000015_000183_000365_000035_001433_002793_006685_010565_030409_046815_014173,
  1_025790_000001_000001_000007_000007_000007_000045_000061_000163_000099_000353_001535_003185_004023_007999_026173_012675_098073,
  1_025797_000001_000001_000005_000013_000001_000011_000107_000041_000171_000773_001513_000883_002117_014449_032323_058271_097173,
  1_025804_000001_000001_000003_000013_000027_000015_000123_000247_000281_000851_000233_001173_006863_014805_012401_030729_104127,
  1_025809_000001_000001_000007_000011_000025_000009_000097_000215_000217_000051_001865_003897_000725_004779_021661_011853_072225,
  1_025816_000001_000001_000005_000003_000005_000031_000125_000081_000367_000705_000325_000519_003879_005607_003247_007149_033177,
  1_025825_000001_000003_000003_000007_000017_000017_000019_000113_000331_000277_000317_001893_001287_008965_027523_061355_045331,
  1_025831_000001_000003_000007_000009_000027_000015_000087_000021_000343_000479_000011_002945_001235_001591_028195_040559_042773,
  1_025845_000001_000003_000003_000013_000001_000045_000115_000041_000263_000569_000071_004051_000739_001031_019213_023961_110767,
  1_025846_000001_000003_000007_000001_000009_000041_000021_000131_000003_000617_000191_004051_002445_013451_011889_025075_082631,
  1_025867_000001_000003_000003_000015_000007_000055_000065_000067_000443_001023_001445_001467_003907_011449_002247_065085_102161,
  1_025870_000001_000003_000005_000015_000019_000027_000097_000181_000051_000591_000099_001443_004927_009809_029693_044293_029369,
  1_025897_000001_000001_000007_000007_000017_000059_000069_000163_000037_000171_000107_002581_003567_009455_019707_006329_027755,
  1_025908_000001_000001_000001_000011_000015_000017_000083_000223_000183_000861_001047_003739_003509_005571_028259_042781_130657,
  1_025937_000001_000003_000003_000007_000015_000011_000033_000115_000297_000841_001629_001559_002261_011763_022255_063819_055831,
  1_025940_000001_000003_000003_000005_000019_000049_000017_000251_000507_000251_000805_001041_003947_002219_019977_065449_025031,
  1_025944_000001_000001_000001_000011_000003_000007_000081_000017_000219_000729_000949_003257_006495_004701_002181_007009_106465,
  1_025949_000001_000003_000007_000005_000027_000035_000015_000083_000043_001013_001427_001943_007555_006613_026879_042685_022071,
  1_025954_000001_000001_000003_000013_000023_000055_000015_000087_000015_000579_000717_000777_000149_011431_026197_017711_007337,
  1_025960_000001_000001_000005_000001_000031_000045_000113_000253_000211_000915_001855_004043_002159_001803_005061_040473_003657,
  1_025963_000001_000001_000003_000007_000025_000015_000037_000073_000467_000969_001123_004053_004837_010091_025461_040803_091157,
  1_025966_000001_000001_000005_000001_000007_000031_000077_000207_000021_000623_000577_001195_005839_013013_011189_061691_033327,
  1_025978_000001_000003_000007_000007_000013_000003_000009_000055_000047_000779_000599_003747_001533_014705_023185_004011_036003,
  1_025996_000001_000001_000005_000005_000031_000017_000099_000253_000103_000957_000241_001893_007435_014907_009089_023205_070639,
  1_026007_000001_000003_000007_000015_000007_000055_000053_000101_000227_000541_002017_000275_000577_015621_001799_050373_043197,
  1_026011_000001_000003_000001_000015_000029_000023_000069_000193_000429_000359_001045_004091_006551_001673_029113_043247_080993,
  1_026027_000001_000003_000007_000011_000005_000037_000013_000027_000277_000065_000565_002631_006919_005593_008481_014703_009719,
  1_026032_000001_000003_000001_000015_000005_000007_000083_000051_000077_000307_001299_001373_005281_015359_015569_050093_059661,
  1_026038_000001_000003_000005_000011_000013_000031_000099_000123_000263_000319_002033_004055_002427_000103_002009_027517_112467,
  1_026049_000001_000001_000007_000003_000013_000001_000051_000131_000017_000861_000459_003925_005511_005255_028553_036437_054591,
  1_026052_000001_000003_000007_000005_000009_000057_000049_000119_000291_000727_001611_004035_004517_010979_028445_026905_057517,
  1_026055_000001_000001_000005_000009_000009_000055_000043_000209_000411_000137_001619_003965_005253_008217_007569_042043_104163,
  1_026085_000001_000003_000003_000007_000021_000003_000107_000255_000353_000735_000071_001789_003351_000755_022805_053537_126859,
  1_026089_000001_000001_000007_000005_000015_000055_000013_000167_000165_000289_001231_002547_008135_005475_002361_049019_110579,
  1_026090_000001_000003_000001_000011_000017_000021_000059_000037_000177_000517_000499_004035_000749_014297_022415_054975_029769,
  1_026098_000001_000003_000007_000003_000003_000059_000055_000017_000483_000625_000875_001465_007583_002969_002741_036965_080367,
  1_026104_000001_000001_000003_000013_000031_000005_000011_000149_000007_000297_001485_000735_004095_010089_005757_064997_056629,
  1_026110_000001_000003_000001_000013_000019_000043_000077_000209_000309_000739_001765_003297_008167_006523_027987_025235_080555,
  1_026113_000001_000001_000003_000009_000031_000057_000125_000075_000003_000633_000085_003339_001691_009721_017465_036801_106147,
  1_026126_000001_000003_000005_000015_000027_000007_000111_000007_000475_000523_001825_001367_001549_015533_013827_014471_100271,
  1_026133_000001_000001_000005_000003_000005_000061_000001_000221_000163_000183_001701_003549_000349_010057_026169_020725_055305,
  1_026138_000001_000001_000003_000001_000015_000041_000013_000071_000269_000909_001253_002553_000083_010055_001057_039841_020437,
  1_026140_000001_000003_000003_000005_000029_000039_000113_000023_000137_000601_000361_001779_000279_015803_008993_002633_114847,
  1_026156_000001_000001_000003_000007_000029_000045_000035_000027_000071_000253_000231_003449_001955_009109_009043_050593_015023,
  1_026159_000001_000003_000001_000011_000017_000045_000085_000255_000341_000957_000769_003009_003997_006435_001161_034219_097077,
  1_026176_000001_000001_000005_000001_000001_000019_000009_000051_000477_000129_001411_003223_005069_003237_015947_027215_070401,
  1_026186_000001_000001_000003_000001_000001_000001_000073_000031_000301_000227_000119_000607_003379_003907_001263_002651_043769,
  1_026203_000001_000001_000001_000015_000021_000059_000109_000155_000473_000361_001871_003085_000513_012607_012747_041067_044977,
  1_026210_000001_000001_000007_000003_000027_000021_000089_000071_000437_000671_001469_002191_004225_006343_001131_029141_025221,
  1_026222_000001_000001_000007_000009_000007_000045_000095_000197_000391_000011_001913_003107_005247_000959_030395_032809_020893,
  1_026224_000001_000003_000007_000015_000013_000049_000077_000245_000463_000769_001807_001311_002715_014819_027595_057521_105221,
  1_026229_000001_000001_000001_000005_000023_000045_000119_000077_000325_000405_001631_000461_006357_007037_031699_046295_118577,
  1_026233_000001_000003_000005_000001_000021_000003_000031_000013_000007_000571_000633_000425_006547_003423_019355_049481_076289,
  1_026236_000001_000001_000003_000009_000007_000051_000113_000173_000169_000097_001821_000979_002553_011505_020047_039277_122905,
  1_026239_000001_000001_000005_000013_000017_000009_000111_000205_000261_000671_000657_000507_003903_010767_004387_003045_102617,
  1_026267_000001_000001_000003_000003_000005_000011_000019_000061_000401_000605_000455_002457_004471_007255_018435_049673_097289,
  1_026291_000001_000003_000001_000001_000031_000025_000077_000035_000065_000127_000929_002325_002315_013819_005509_012515_036991,
  1_026293_000001_000001_000007_000005_000021_000049_000033_000119_000181_000645_001425_002411_000245_013755_018775_050061_047119,
  1_026298_000001_000003_000007_000005_000027_000043_000081_000191_000233_000435_000829_003881_000713_011153_004637_037721_115567,
  1_026303_000001_000003_000007_000001_000027_000059_000051_000165_000059_000931_001921_003059_006843_000813_022063_029445_114765,
  1_026308_000001_000001_000005_000011_000031_000053_000089_000069_000029_000893_001241_000007_001707_016167_008371_014021_103281]

def dirRows17_1_5 : List Nat := [
  1_026312_000001_000003_000001_000001_000023_000021_000003_000035_000073_000769_001417_004051_003223_000813_001141_018823_031951,
  1_026315_000001_000003_000007_000011_000009_000017_000089_000085_000407_000137_001865_002881_001495_003757_003711_036651_001797,
  1_026342_000001_000003_000005_000001_000025_000029_000029_000217_000015_000173_000479_002363_002341_006193_016403_064097_001173,
  1_026354_000001_000003_000003_000003_000011_000029_000113_000167_000333_000573_001467_002223_005693_001063_020299_040993_069055,
  1_026363_000001_000001_000003_000007_000003_000051_000045_000139_000079_000393_001251_001087_001423_001827_023445_041635_078511,
  1_026365_000001_000003_000003_000013_000029_000045_000085_000229_000033_000373_000113_001205_000997_011777_007663_018513_005797,
  1_026383_000001_000001_000005_000005_000015_000005_000127_000085_000049_000345_000901_003215_002347_002329_019597_039555_025031,
  1_026391_000001_000001_000007_000011_000009_000025_000071_000183_000341_001011_000439_003649_002859_010183_007635_045297_038581,
  1_026398_000001_000001_000001_000011_000023_000013_000001_000069_000461_000077_001641_002851_001889_002413_001131_039009_033773,
  1_026416_000001_000003_000007_000007_000025_000019_000067_000233_000141_000207_001501_000453_004773_007411_022839_025365_053189,
  1_026421_000001_000001_000007_000003_000003_000017_000013_000167_000073_001005_000887_002595_004351_003249_005653_036025_033733,
  1_026425_000001_000001_000007_000015_000011_000001_000105_000215_000329_000601_001477_000723_004597_003525_026235_063957_026677,
  1_026434_000001_000001_000001_000011_000027_000015_000111_000133_000327_000567_000845_002135_007905_007297_029255_014947_104885,
  1_026439_000001_000001_000007_000009_000021_000011_000067_000179_000459_000423_000295_003445_001681_012907_029281_007445_035539,
  1_026453_000001_000001_000003_000011_000023_000061_000111_000123_000081_000439_000299_003557_002821_000705_015393_037175_011533,
  1_026454_000001_000001_000003_000001_000013_000015_000113_000227_000285_000313_000687_002085_006363_008003_032661_036461_068759,
  1_026470_000001_000003_000003_000001_000027_000007_000101_000177_000363_000461_001519_002339_000473_007469_004335_030951_130987,
  1_026491_000001_000001_000001_000003_000031_000039_000059_000159_000207_000093_000581_001973_000945_011343_015901_022001_003515,
  1_026493_000001_000003_000007_000005_000011_000053_000125_000057_000389_000985_001055_003803_003879_005537_028221_036805_016025,
  1_026500_000001_000001_000001_000009_000001_000063_000081_000057_000059_000813_000865_003491_003771_006121_006847_014765_068567,
  1_026509_000001_000001_000007_000007_000013_000017_000023_000211_000435_000167_000933_000357_003567_003019_028439_017701_119937,
  1_026518_000001_000001_000001_000009_000007_000053_000103_000155_000211_000719_000413_003673_002795_015687_001737_050855_129133,
  1_026531_000001_000001_000003_000013_000011_000023_000053_000121_000497_000383_001655_000937_005563_002549_023183_046149_078875,
  1_026533_000001_000003_000005_000011_000025_000001_000045_000139_000437_000729_002009_003245_004091_000551_025993_031655_033641,
  1_026540_000001_000003_000001_000013_000007_000023_000087_000111_000471_000501_001767_001051_007037_003199_019609_043227_053667,
  1_026552_000001_000003_000007_000001_000025_000001_000049_000189_000055_000375_000601_002065_002991_007697_025739_014951_043705,
  1_026566_000001_000001_000007_000005_000029_000021_000051_000111_000081_000809_001963_002143_005529_015701_004719_011857_088207,
  1_026569_000001_000001_000005_000011_000027_000027_000007_000145_000281_000939_000537_001255_001475_011383_015081_009105_102775,
  1_026583_000001_000001_000005_000007_000009_000045_000067_000023_000065_000139_001871_003975_006357_006515_025423_023915_076289,
  1_026590_000001_000001_000005_000011_000031_000031_000089_000065_000451_000341_000819_002439_006753_015113_009085_032687_005055,
  1_026596_000001_000001_000005_000001_000015_000029_000123_000083_000495_000185_000303_000315_006015_005257_002467_004903_078269,
  1_026624_000001_000001_000003_000005_000031_000051_000049_000199_000501_000407_000733_001181_008023_007321_014765_017535_019893,
  1_026636_000001_000001_000005_000005_000019_000015_000103_000183_000013_000969_001537_003053_003173_012983_021761_033733_067799,
  1_026667_000001_000003_000001_000001_000027_000055_000037_000149_000379_000011_001655_002317_003135_006459_025941_012679_060245,
  1_026669_000001_000001_000003_000009_000009_000013_000033_000243_000337_000741_001685_001147_005465_004865_000559_023993_047273,
  1_026672_000001_000003_000005_000013_000021_000011_000039_000169_000135_000209_001909_003655_003117_001075_008165_054633_028189,
  1_026675_000001_000003_000001_000015_000009_000023_000011_000123_000063_000133_000947_000907_003853_010291_022905_004561_092497,
  1_026687_000001_000001_000003_000013_000017_000009_000005_000209_000429_000003_002035_001497_006765_005991_024991_008155_103417,
  1_026689_000001_000001_000005_000013_000027_000047_000079_000011_000041_000791_001939_003099_004069_004665_020801_018659_072163,
  1_026696_000001_000003_000001_000013_000025_000037_000079_000131_000233_000647_000291_001419_005157_004261_027715_000611_083157,
  1_026702_000001_000001_000005_000001_000017_000061_000045_000163_000137_000937_000091_001695_001553_000543_028615_006855_075201,
  1_026714_000001_000001_000003_000013_000007_000063_000109_000013_000351_000159_001111_002791_004701_005805_009707_018361_098091,
  1_026716_000001_000001_000003_000011_000011_000021_000055_000247_000111_000801_000093_003091_001043_009761_023679_005555_000195,
  1_026729_000001_000001_000001_000001_000013_000043_000123_000113_000265_000561_000659_003755_006605_010949_030511_029495_009075,
  1_026732_000001_000003_000001_000007_000023_000063_000019_000073_000233_001017_000851_001971_003999_007407_025309_063991_092867,
  1_026737_000001_000003_000003_000003_000019_000063_000127_000107_000465_000463_001507_001323_004729_014717_009129_024859_117565,
  1_026747_000001_000001_000007_000001_000019_000011_000013_000085_000339_000939_000895_000887_000765_015501_008783_065087_077899,
  1_026773_000001_000003_000007_000003_000007_000015_000043_000153_000365_000223_001947_002295_000787_005549_020089_029203_004807,
  1_026780_000001_000003_000007_000003_000031_000027_000051_000217_000483_000623_000633_002123_001211_009173_017949_054251_089161,
  1_026801_000001_000003_000003_000011_000003_000011_000111_000073_000283_000023_001925_000253_005141_012545_024913_016847_013067,
  1_026811_000001_000003_000005_000005_000031_000039_000035_000235_000135_000085_000191_000999_006633_012527_021401_061339_081239,
  1_026813_000001_000001_000003_000015_000009_000013_000039_000125_000137_000639_000555_000813_002821_001199_032075_015079_104609,
  1_026831_000001_000003_000007_000007_000015_000043_000099_000051_000245_000025_000147_000089_006841_005523_028493_013967_113109,
  1_026836_000001_000001_000003_000013_000007_000005_000027_000121_000269_000231_001011_001365_005055_011619_027393_048033_065725,
  1_026839_000001_000001_000007_000005_000009_000023_000041_000071_000327_000339_001681_003303_004143_000421_015213_048405_098067,
  1_026849_000001_000003_000007_000015_000015_000033_000073_000033_000351_000131_001051_003909_007535_007659_009443_035015_000329,
  1_026862_000001_000001_000003_000009_000019_000055_000097_000223_000265_000877_000235_000867_004961_003137_019885_010955_007655,
  1_026869_000001_000003_000005_000013_000001_000011_000075_000215_000271_000793_001691_001437_001317_010977_001311_064865_092361,
  1_026873_000001_000001_000001_000005_000023_000023_000035_000053_000187_000345_000115_000929_003919_004523_031709_016771_033399,
  1_026874_000001_000003_000005_000011_000017_000007_000075_000057_000351_000359_001737_002665_004259_013905_006999_045359_117891,
  1_026888_000001_000001_000005_000003_000023_000029_000049_000209_000417_000843_000531_001649_007829_006271_003759_039727_047415,
  1_026891_000001_000001_000007_000001_000021_000045_000101_000105_000385_000797_000985_001447_003757_003287_000583_029283_096821,
  1_026896_000001_000001_000007_000009_000001_000029_000015_000207_000289_000465_000815_002289_000449_009403_019197_013797_102651,
  1_026899_000001_000003_000007_000015_000005_000045_000081_000187_000021_000433_000679_002759_003375_006935_022595_050149_013557,
  1_026912_000001_000003_000003_000005_000011_000055_000069_000219_000095_000021_000645_001955_007527_006037_029427_036297_062013,
  1_026921_000001_000001_000007_000015_000013_000035_000025_000067_000383_000013_000539_002399_004611_008065_003815_027771_050411,
  1_026935_000001_000003_000001_000003_000027_000047_000065_000033_000393_000895_001663_001289_001057_011887_001259_053611_036811,
  1_026941_000001_000003_000005_000003_000005_000001_000027_000065_000379_000015_001643_001461_003009_008177_015589_005889_001103,
  1_026949_000001_000001_000005_000015_000027_000053_000043_000173_000377_000665_000581_001061_001363_015015_026709_029507_028075,
  1_026954_000001_000001_000007_000003_000009_000011_000045_000071_000023_000995_001277_000855_001001_012927_019753_046639_016949,
  1_026967_000001_000001_000007_000005_000015_000033_000027_000027_000437_000415_001785_002091_000279_008041_002209_015821_122363,
  1_026977_000001_000001_000007_000001_000021_000001_000047_000215_000463_000959_000849_001703_005175_010043_016991_011023_052201,
  1_027011_000001_000001_000001_000011_000021_000007_000121_000031_000095_000631_001717_003017_002083_002047_012051_063117_025949,
  1_027018_000001_000001_000005_000005_000009_000005_000105_000121_000205_000643_001721_002601_002991_002381_004873_012049_020043,
  1_027026_000001_000003_000005_000011_000007_000011_000097_000187_000253_000571_000101_003077_001479_009513_015451_037105_034445,
  1_027028_000001_000001_000007_000011_000019_000019_000039_000115_000221_000013_000217_000369_006855_014529_000143_013461_062927,
  1_027032_000001_000003_000003_000007_000029_000027_000009_000171_000419_000571_000837_003829_001871_012691_030693_004195_038905,
  1_027044_000001_000001_000001_000011_000005_000055_000017_000041_000241_000419_000337_000897_004663_014469_018701_018009_044605,
  1_027053_000001_000001_000007_000007_000001_000033_000063_000197_000257_000655_001287_002571_000057_013275_029669_008501_061389,
  1_027062_000001_000003_000005_000003_000029_000039_000101_000215_000101_000271_001373_002171_000841_009865_028951_020369_042413,
  1_027065_000001_000003_000005_000001_000031_000023_000119_000137_000263_000633_001239_000281_004965_014913_030229_014147_037183,
  1_027068_000001_000003_000001_000003_000011_000055_000033_000045_000069_000913_000269_001021_004005_015191_011187_045917_076905,
  1_027080_000001_000001_000001_000013_000027_000011_000075_000139_000243_000221_001289_002195_007041_010053_005731_035245_041317,
  1_027083_000001_000001_000007_000009_000025_000011_000081_000243_000233_000137_000831_002825_006007_007305_031733_064343_007047,
  1_027093_000001_000003_000005_000009_000017_000061_000025_000245_000285_000969_001397_001331_005393_003653_015533_009121_111115,
  1_027098_000001_000001_000005_000009_000001_000009_000061_000205_000285_000849_001071_001013_002655_010121_015165_025189_056207,
  1_027107_000001_000003_000005_000007_000019_000045_000121_000019_000237_000711_001523_003251_000693_013567_031993_011239_064127,
  1_027110_000001_000001_000001_000011_000023_000025_000033_000211_000321_001021_001855_000291_002911_011841_021929_064147_063201,
  1_027114_000001_000001_000007_000003_000027_000021_000119_000219_000431_000819_000083_002487_007533_010697_003129_053301_104999,
  1_027121_000001_000003_000005_000015_000009_000025_000089_000065_000293_000411_000989_003103_005563_015703_008757_032595_043409,
  1_027127_000001_000003_000003_000001_000031_000031_000045_000173_000231_000171_001185_001499_001713_009945_011575_037113_103989,
  1_027137_000001_000001_000005_000013_000027_000003_000093_000253_000023_000071_001963_002571_006259_015757_009709_042835_042047,
  1_027144_000001_000001_000007_000011_000005_000011_000123_000117_000039_000559_000111_000527_006253_000781_009177_047189_094031,
  1_027155_000001_000001_000005_000015_000005_000049_000093_000185_000167_000787_001553_003291_003723_001651_023225_005643_042967,
  1_027171_000001_000003_000001_000013_000015_000035_000019_000193_000505_000127_000661_001943_001249_005103_008233_064319_076955,
  1_027178_000001_000003_000007_000007_000017_000013_000097_000185_000415_000331_000283_003341_002903_002927_007729_004095_103083,
  1_027180_000001_000001_000003_000015_000015_000025_000065_000045_000413_000521_000747_002605_005845_012909_007651_045937_099043,
  1_027185_000001_000001_000005_000009_000009_000021_000003_000075_000335_000745_001493_001721_001977_011105_022621_049281_107113,
  1_027191_000001_000003_000001_000011_000025_000011_000099_000053_000239_000831_000655_000615_007565_014039_029115_026165_127159,
  1_027192_000001_000001_000007_000005_000031_000035_000075_000157_000441_000815_000119_000565_002703_014059_007867_042487_093647]

def dirRows17_1_6 : List Nat := [
  1_027195_000001_000003_000007_000003_000003_000059_000101_000223_000257_000989_000363_001059_005157_011129_001481_019287_117623,
  1_027212_000001_000001_000001_000001_000029_000027_000001_000129_000253_000673_000103_001881_007053_001261_032003_023345_102503,
  1_027215_000001_000003_000001_000009_000011_000037_000003_000099_000303_000519_001175_003021_002275_009919_025011_045865_071351,
  1_027218_000001_000001_000007_000015_000027_000009_000107_000061_000385_000021_000861_002119_004643_008379_025455_022425_113387,
  1_027230_000001_000001_000001_000007_000027_000015_000073_000211_000497_000527_000873_000329_002213_000415_013987_056581_027829,
  1_027234_000001_000003_000005_000001_000031_000043_000107_000149_000209_000211_002029_002793_002213_012389_027177_051375_051983,
  1_027245_000001_000003_000003_000007_000025_000057_000067_000101_000127_000043_001775_000801_003343_012203_008667_058387_010735,
  1_027248_000001_000001_000007_000005_000013_000047_000101_000123_000133_000593_001409_003525_002545_013009_011873_038463_001075,
  1_027263_000001_000003_000003_000001_000003_000019_000075_000221_000157_000067_000397_001141_005073_010795_009857_035459_062701,
  1_027279_000001_000001_000007_000007_000023_000017_000041_000179_000083_000543_001839_003709_000131_015681_009147_018685_090389,
  1_027288_000001_000001_000005_000007_000017_000015_000031_000217_000079_000687_001927_002889_006127_015095_028437_016403_123275,
  1_027294_000001_000003_000007_000015_000013_000017_000123_000075_000045_000635_000525_003897_006769_013855_016695_018039_037479,
  1_027303_000001_000001_000005_000001_000023_000015_000069_000161_000503_000339_001061_000839_000009_010013_024493_032711_050147,
  1_027304_000001_000003_000003_000011_000005_000045_000009_000233_000131_000629_001111_003311_002211_009079_019763_023793_085389,
  1_027312_000001_000001_000007_000007_000007_000027_000015_000085_000291_000925_001545_003061_004867_001613_013467_053731_092811,
  1_027330_000001_000003_000005_000001_000021_000021_000071_000033_000141_000675_001519_003275_001491_010717_028199_014983_018961,
  1_027341_000001_000003_000005_000005_000031_000013_000109_000239_000369_000373_000257_003765_002531_013281_011877_029439_106939,
  1_027342_000001_000003_000007_000015_000013_000039_000111_000203_000109_000179_000789_003849_000433_005745_002343_015795_092603,
  1_027344_000001_000003_000005_000005_000011_000057_000003_000245_000289_000249_000713_000315_002261_001249_006963_044507_100829,
  1_027353_000001_000003_000005_000011_000005_000049_000097_000245_000363_000315_000509_000017_004485_015393_028491_017945_065663,
  1_027356_000001_000003_000005_000001_000005_000013_000015_000017_000141_000119_001393_000581_002439_002015_011527_008537_103005,
  1_027366_000001_000003_000005_000001_000025_000009_000117_000025_000099_000777_000985_001159_000099_003013_021429_019027_061833,
  1_027369_000001_000001_000001_000005_000001_000047_000037_000083_000159_000029_000281_003789_002525_015999_008965_011145_014453,
  1_027377_000001_000001_000003_000001_000011_000063_000077_000207_000267_000473_000241_000629_006969_009093_000839_003875_018873,
  1_027387_000001_000003_000005_000007_000031_000057_000103_000065_000349_000321_000717_002403_000105_000643_027999_002509_123061,
  1_027409_000001_000001_000005_000007_000003_000031_000007_000113_000017_000995_001211_001749_006757_003391_008011_047715_024301,
  1_027437_000001_000003_000007_000011_000007_000055_000029_000155_000373_000081_001255_002205_003233_009537_022129_024505_079021,
  1_027443_000001_000001_000007_000005_000003_000049_000005_000051_000089_000107_000585_003933_000745_011685_020663_012521_024357,
  1_027446_000001_000001_000007_000001_000017_000017_000083_000215_000357_000581_002025_003411_007287_011925_002253_043513_098655,
  1_027450_000001_000003_000005_000003_000027_000027_000051_000147_000471_000509_000423_003807_000677_008429_000581_047999_035913,
  1_027452_000001_000003_000003_000009_000015_000031_000001_000093_000207_000759_001991_000473_002273_000043_012547_058085_020953,
  1_027457_000001_000001_000003_000003_000001_000027_000039_000219_000381_000187_000159_002333_006141_003775_005693_014853_038765,
  1_027472_000001_000003_000001_000005_000019_000001_000019_000237_000231_000975_001609_000723_000241_010105_018817_058373_118889,
  1_027475_000001_000001_000005_000007_000007_000043_000099_000181_000109_000529_000421_001493_001075_012219_024287_033479_029987,
  1_027487_000001_000001_000007_000001_000017_000011_000079_000085_000157_000851_001429_003355_000139_014327_030025_060303_109015,
  1_027488_000001_000003_000005_000009_000011_000015_000037_000079_000005_000169_000999_000815_006255_011763_016299_049891_101917,
  1_027493_000001_000003_000005_000009_000029_000045_000051_000211_000159_000771_001631_002871_004877_004941_018127_015669_057515,
  1_027506_000001_000001_000003_000003_000019_000029_000009_000205_000253_000399_000303_002441_003187_000641_023341_052951_057559,
  1_027508_000001_000003_000003_000015_000011_000029_000121_000227_000069_000935_000365_000217_004617_013193_027663_046903_107843,
  1_027521_000001_000001_000005_000011_000013_000031_000013_000243_000275_000685_001613_001915_002775_011225_004729_045549_103875,
  1_027522_000001_000001_000005_000001_000009_000061_000035_000143_000165_000441_000517_001735_005281_010139_021107_011713_130483,
  1_027527_000001_000003_000005_000005_000013_000021_000007_000219_000097_000887_001845_000469_002523_001569_009959_004397_015823,
  1_027536_000001_000003_000007_000011_000015_000027_000073_000223_000365_000939_000331_000145_000683_006441_023421_059177_031763,
  1_027539_000001_000003_000001_000005_000009_000059_000085_000113_000343_000831_000121_003157_006059_014923_027401_019759_014223,
  1_027541_000001_000003_000001_000007_000017_000025_000003_000039_000471_000759_002041_000609_004293_007491_008041_050857_025601,
  1_027546_000001_000001_000005_000015_000019_000045_000021_000005_000269_000197_000527_001839_001719_015105_018671_042167_009617,
  1_027557_000001_000003_000001_000003_000005_000035_000003_000105_000395_000113_001945_003945_003951_012207_032135_034121_010237,
  1_027564_000001_000001_000005_000013_000021_000043_000051_000255_000057_000399_001937_001573_000363_011589_026989_054345_094341,
  1_027572_000001_000003_000003_000003_000005_000045_000083_000125_000179_000923_000039_003617_007683_008191_031469_023633_079179,
  1_027576_000001_000003_000007_000009_000009_000037_000107_000065_000423_000077_001779_001375_002085_011779_006535_002973_029425,
  1_027584_000001_000001_000007_000003_000011_000039_000101_000137_000407_000855_001767_001717_002821_010447_031187_006329_124111,
  1_027608_000001_000001_000005_000011_000027_000027_000045_000103_000225_000681_000725_001791_002881_002923_014473_012269_058743,
  1_027611_000001_000001_000003_000011_000015_000039_000113_000167_000143_000677_001189_001571_005339_006065_030187_019639_042227,
  1_027618_000001_000001_000001_000003_000013_000007_000113_000075_000129_000619_001741_001495_004751_011085_022391_000199_105463,
  1_027620_000001_000001_000003_000003_000019_000047_000077_000195_000209_000453_000495_001605_005255_015327_008941_018239_054511,
  1_027627_000001_000001_000007_000007_000021_000029_000095_000175_000003_000689_000611_002467_006919_012399_018869_016171_102753,
  1_027630_000001_000001_000005_000001_000027_000043_000061_000133_000037_000603_000315_001915_000813_015769_027447_029589_122281,
  1_027637_000001_000001_000007_000003_000011_000001_000119_000235_000093_000481_001811_001643_004853_011313_008991_006153_068985,
  1_027638_000001_000001_000001_000007_000001_000013_000099_000083_000221_000775_001345_000219_004445_011837_010405_043563_122111,
  1_027641_000001_000001_000005_000013_000021_000033_000105_000019_000343_000571_000703_000429_002485_015531_009801_024101_088275,
  1_027647_000001_000003_000005_000001_000027_000055_000073_000049_000033_000773_001411_001227_006827_001271_028897_024265_032383,
  1_027650_000001_000003_000007_000003_000009_000045_000059_000005_000157_000669_000261_002077_001425_008221_005849_040857_121029,
  1_027676_000001_000003_000007_000011_000023_000005_000087_000113_000279_000611_001195_001775_005813_006737_018051_041341_093331,
  1_027683_000001_000001_000007_000007_000009_000055_000113_000003_000167_000295_001579_002833_004003_007583_022833_044427_034781,
  1_027690_000001_000001_000005_000013_000021_000033_000127_000175_000153_000961_000819_000143_003969_006159_029437_014123_065317,
  1_027695_000001_000001_000001_000015_000031_000027_000001_000017_000329_000963_001907_000421_000535_002323_022749_044375_115531,
  1_027700_000001_000001_000005_000015_000015_000023_000057_000171_000253_000401_001577_003855_000197_007979_017577_025275_088831,
  1_027704_000001_000001_000007_000009_000027_000009_000007_000013_000381_000847_000533_000357_006551_013441_005717_020209_064347,
  1_027709_000001_000001_000007_000009_000001_000001_000031_000245_000315_000901_001857_000497_004285_013227_003937_045025_059627,
  1_027715_000001_000001_000007_000003_000005_000023_000119_000147_000479_000071_000113_003379_000863_008285_031259_015863_047267,
  1_027727_000001_000003_000005_000001_000005_000007_000077_000163_000421_000353_001757_001335_004975_003011_011703_056075_012045,
  1_027745_000001_000001_000005_000003_000031_000025_000081_000059_000211_000463_001693_000609_003307_003641_019643_029361_008399,
  1_027763_000001_000001_000007_000013_000019_000047_000043_000043_000275_000735_000535_003689_003987_010695_017243_060565_072299,
  1_027769_000001_000003_000003_000005_000025_000035_000075_000063_000305_000127_000189_001785_000731_012089_027811_043259_028191,
  1_027770_000001_000003_000007_000011_000017_000017_000059_000107_000139_000355_001055_003181_004743_014785_026323_000441_035613,
  1_027796_000001_000003_000001_000001_000017_000017_000039_000203_000373_000601_000449_001837_000835_007061_014655_061765_080735,
  1_027810_000001_000003_000005_000007_000027_000017_000025_000041_000125_000895_001843_003167_001527_004707_006477_033575_097247,
  1_027812_000001_000003_000003_000003_000013_000039_000025_000015_000279_000347_001121_003603_003019_009577_016863_061483_015995,
  1_027834_000001_000003_000005_000011_000015_000033_000015_000081_000185_000289_000909_001237_003623_003983_024211_062719_079685,
  1_027847_000001_000001_000001_000007_000029_000001_000053_000017_000137_000269_001209_003937_004167_014057_008061_038863_101477,
  1_027848_000001_000001_000001_000009_000005_000045_000095_000127_000507_000159_001763_001527_005689_011007_000549_022837_099207,
  1_027862_000001_000003_000003_000001_000015_000057_000127_000039_000073_000397_000067_003159_000119_008929_029425_057687_068063,
  1_027868_000001_000003_000001_000003_000027_000007_000111_000209_000291_000017_001381_001597_005389_004577_020463_028325_023743,
  1_027881_000001_000003_000003_000007_000023_000041_000083_000081_000213_000537_001037_002371_001485_008391_012471_058541_027559,
  1_027884_000001_000003_000001_000015_000021_000043_000087_000075_000451_000851_001917_002739_002167_012531_029931_008017_015163,
  1_027890_000001_000001_000003_000009_000027_000019_000041_000145_000401_000759_000527_003085_000187_010615_004995_022421_069867,
  1_027895_000001_000003_000003_000013_000029_000051_000065_000047_000157_000609_001061_001913_006195_012503_010375_055819_122091,
  1_027904_000001_000001_000003_000007_000001_000019_000003_000149_000453_000279_000569_003429_000331_000711_026773_021163_129339,
  1_027914_000001_000001_000005_000003_000007_000047_000039_000181_000115_000771_002037_000411_002697_007501_006393_019461_074967,
  1_027919_000001_000003_000003_000005_000005_000017_000089_000161_000409_000049_001447_003977_004777_015553_003521_032553_126385,
  1_027921_000001_000003_000001_000003_000025_000059_000073_000105_000505_001009_001147_000317_003457_013743_008337_038077_007709,
  1_027931_000001_000003_000003_000015_000023_000037_000025_000123_000413_000911_000637_002345_000691_015199_022927_052467_126715,
  1_027933_000001_000001_000005_000001_000009_000051_000093_000123_000269_000045_001947_000179_005091_003743_031491_039771_119175,
  1_027938_000001_000003_000001_000005_000029_000023_000107_000183_000025_000115_000187_000857_007337_000469_008755_017281_045941,
  1_027943_000001_000003_000001_000013_000025_000061_000085_000115_000181_000955_001365_000837_005941_013209_027009_058865_115149,
  1_027949_000001_000001_000001_000011_000031_000063_000101_000029_000037_000185_000465_002651_006249_006887_025021_060539_050037,
  1_028005_000001_000003_000001_000007_000007_000061_000057_000243_000143_000223_001759_004085_006765_013293_031929_029579_035053,
  1_028012_000001_000003_000001_000003_000029_000009_000121_000003_000285_000199_001439_003151_005059_008535_017049_038917_046347,
  1_028017_000001_000003_000001_000003_000017_000043_000063_000087_000427_000341_001251_003775_007729_003183_010579_000917_049035,
  1_028024_000001_000001_000007_000003_000005_000059_000119_000227_000495_000345_000841_002021_002483_015987_024663_009819_033009]

def dirRows17_1_7 : List Nat := [
  1_028030_000001_000001_000005_000011_000019_000057_000023_000181_000063_000991_000001_002927_004785_009645_017435_055627_001069,
  1_028034_000001_000001_000007_000001_000031_000011_000057_000123_000279_000815_001407_003509_003963_008503_020345_007777_103701,
  1_028045_000001_000001_000005_000005_000019_000051_000037_000015_000363_000939_001863_003485_007073_003035_031279_007289_039811,
  1_028048_000001_000001_000003_000003_000003_000041_000029_000037_000311_000535_001993_003937_000309_013055_022595_059641_095317,
  1_028054_000001_000003_000007_000009_000019_000029_000023_000181_000503_000223_001655_000997_007861_005867_016979_004559_007447,
  1_028063_000001_000003_000005_000003_000013_000013_000003_000137_000361_000101_001005_002339_000609_011891_015245_009653_063579,
  1_028069_000001_000001_000001_000015_000031_000015_000117_000151_000051_000805_001403_003243_004007_011979_003945_061935_043225,
  1_028070_000001_000001_000007_000003_000001_000043_000093_000105_000009_000555_000731_000655_002097_008015_027557_027985_011323,
  1_028073_000001_000003_000003_000009_000023_000035_000059_000217_000437_000755_000685_001431_002965_005269_025621_021735_001397,
  1_028084_000001_000001_000005_000001_000009_000061_000041_000053_000101_000111_000531_003385_004771_009535_015995_029687_099035,
  1_028096_000001_000001_000007_000007_000001_000003_000025_000251_000463_000099_000677_001889_003697_005579_011429_038301_057917,
  1_028114_000001_000001_000005_000009_000011_000015_000065_000031_000369_000825_001229_001595_003891_005235_016973_025307_007805,
  1_028126_000001_000003_000007_000015_000027_000037_000035_000103_000393_000781_001713_002009_001973_015461_006801_017557_105139,
  1_028141_000001_000003_000007_000007_000017_000051_000083_000029_000113_000173_001733_002137_003041_011361_015999_025779_112493,
  1_028149_000001_000003_000005_000011_000019_000003_000089_000103_000449_000375_000437_004077_000889_012163_029323_048845_007783,
  1_028165_000001_000003_000007_000001_000019_000025_000083_000035_000203_000027_000507_000025_006629_013941_006187_017533_083349,
  1_028177_000001_000003_000005_000009_000015_000059_000003_000087_000473_000733_001263_001733_004275_009283_032535_020807_059487,
  1_028189_000001_000003_000003_000009_000019_000011_000027_000083_000355_000949_001339_000171_000921_014171_016271_041485_020405,
  1_028190_000001_000001_000003_000011_000025_000051_000009_000241_000367_000519_001895_000429_007689_009469_032709_046363_075767,
  1_028203_000001_000001_000007_000007_000027_000059_000085_000087_000467_000273_001763_000391_000451_016165_007501_044779_068281,
  1_028206_000001_000001_000007_000005_000001_000035_000005_000217_000031_000145_001151_002255_003543_000401_017141_005981_025183,
  1_028208_000001_000001_000001_000013_000011_000011_000019_000093_000095_000751_000031_001091_002733_010517_002553_005247_042651,
  1_028220_000001_000003_000007_000005_000015_000001_000067_000021_000303_000137_000355_001989_005211_004985_000645_006867_126931,
  1_028226_000001_000001_000003_000015_000021_000023_000059_000209_000121_000623_000575_002447_006149_010481_004959_022913_064963,
  1_028231_000001_000003_000001_000001_000025_000055_000047_000095_000215_000609_000639_001023_001579_005953_003063_013721_017607,
  1_028249_000001_000001_000001_000011_000007_000061_000127_000173_000307_000623_000453_003827_004847_016085_004407_004043_014881,
  1_028256_000001_000001_000007_000011_000005_000015_000051_000125_000439_000795_000203_000091_003543_006925_032055_052277_026841,
  1_028259_000001_000001_000001_000013_000015_000009_000107_000183_000391_000751_000243_001105_008031_007443_000137_045695_080163,
  1_028265_000001_000003_000005_000009_000005_000061_000117_000113_000121_000291_000225_001705_004017_013113_011035_028613_025927,
  1_028266_000001_000001_000003_000011_000027_000009_000045_000085_000309_000991_001639_001183_008013_014587_007563_021111_048497,
  1_028271_000001_000003_000001_000009_000021_000061_000123_000189_000265_000593_000163_003681_002271_002795_000753_048019_129507,
  1_028274_000001_000001_000001_000005_000031_000051_000127_000079_000333_000177_001723_001365_002055_003063_010693_061223_060659,
  1_028280_000001_000003_000007_000015_000009_000011_000011_000223_000031_000397_000319_003283_003765_004729_004711_058323_114063,
  1_028296_000001_000001_000007_000011_000007_000063_000107_000215_000019_000491_000131_002491_006373_011081_002159_001311_109547,
  1_028316_000001_000003_000005_000005_000021_000013_000105_000021_000193_000447_001331_002439_004165_015689_021273_004007_055161,
  1_028319_000001_000003_000005_000011_000019_000047_000025_000211_000335_000437_001041_002093_007239_002869_018273_040505_013681,
  1_028343_000001_000003_000003_000015_000007_000013_000127_000059_000439_000163_001841_001945_004915_016269_018315_015057_043197,
  1_028344_000001_000001_000003_000003_000015_000033_000101_000241_000131_000353_001749_003965_001231_008167_009309_040337_004419,
  1_028357_000001_000003_000001_000001_000001_000043_000033_000129_000137_000889_000799_002937_003633_004769_002411_056059_000585,
  1_028358_000001_000001_000003_000009_000025_000031_000045_000199_000229_000175_001099_001143_001721_011811_022757_059843_117813,
  1_028364_000001_000001_000007_000007_000019_000045_000043_000101_000219_000209_001169_000599_005523_002463_015161_016675_085111,
  1_028370_000001_000001_000003_000015_000023_000027_000091_000051_000397_000705_000651_002345_003875_010005_029523_042805_076891,
  1_028372_000001_000003_000003_000005_000029_000049_000017_000233_000149_000821_001953_001931_007127_000957_006477_021259_126657,
  1_028379_000001_000003_000003_000003_000027_000049_000057_000145_000143_000001_000583_003987_000651_012285_020139_051063_021449,
  1_028388_000001_000001_000003_000005_000029_000061_000041_000093_000277_000111_000395_002929_005325_015183_003981_023799_072781,
  1_028392_000001_000001_000007_000005_000025_000043_000085_000137_000401_000261_001183_003959_001983_016209_030523_000429_109181,
  1_028395_000001_000001_000001_000005_000007_000019_000079_000237_000373_000929_000907_001771_006991_000211_005269_002135_032051,
  1_028406_000001_000001_000007_000005_000017_000015_000041_000049_000363_000015_001483_001017_002439_011713_019983_026275_011945,
  1_028418_000001_000001_000007_000007_000019_000005_000055_000015_000015_000573_001075_003225_006815_011893_018417_050833_071903,
  1_028423_000001_000001_000007_000009_000023_000037_000075_000003_000477_000291_000037_001861_002697_013369_024573_027285_096757,
  1_028435_000001_000001_000001_000013_000005_000029_000065_000195_000365_000465_000865_002705_005249_007051_003795_056611_072317,
  1_028444_000001_000001_000003_000009_000019_000009_000085_000239_000509_000313_001137_002221_005475_000071_011901_001877_068701,
  1_028454_000001_000003_000003_000007_000003_000053_000055_000223_000441_000159_000933_002573_003441_003295_025005_029021_097145,
  1_028468_000001_000003_000005_000005_000003_000011_000101_000181_000293_000319_000047_002971_000387_004697_026613_008531_020461,
  1_028477_000001_000003_000003_000013_000017_000011_000041_000233_000455_000353_001817_003065_004657_001717_003039_010937_107085,
  1_028478_000001_000001_000007_000001_000017_000023_000085_000005_000291_000725_001791_003525_007705_006561_025311_044679_021419,
  1_028480_000001_000001_000007_000001_000023_000041_000097_000117_000435_000261_002007_000965_006913_012245_025723_008445_030871,
  1_028486_000001_000001_000001_000015_000029_000039_000101_000033_000055_001019_001431_002601_003837_014873_011785_012449_030815,
  1_028489_000001_000001_000005_000003_000015_000035_000101_000007_000479_000535_001875_002435_001461_013967_002755_045879_093561,
  1_028500_000001_000003_000001_000005_000029_000057_000089_000209_000473_000289_001843_002051_003997_001753_018179_041355_089301,
  1_028507_000001_000003_000001_000011_000017_000045_000047_000057_000109_000309_001009_000653_005175_015599_021617_035353_055253,
  1_028519_000001_000003_000005_000003_000001_000011_000057_000083_000385_000765_001887_000785_002115_008689_014783_014841_122221,
  1_028523_000001_000003_000005_000011_000011_000005_000077_000115_000189_000371_000887_003653_008159_015737_006763_052807_128841,
  1_028534_000001_000001_000001_000011_000011_000033_000009_000145_000439_000565_000171_003867_007149_004369_015073_003277_025873,
  1_028547_000001_000001_000003_000001_000011_000009_000017_000255_000129_000835_001705_001551_000877_004831_012717_002549_062723,
  1_028549_000001_000001_000007_000011_000017_000033_000021_000195_000143_000153_001855_001323_001225_016359_016479_008883_076449,
  1_028562_000001_000001_000001_000005_000031_000023_000061_000053_000077_000465_001983_004019_004865_014721_018601_048179_100453,
  1_028571_000001_000003_000001_000013_000019_000053_000083_000063_000165_000393_000469_001465_002669_010155_007029_026185_121223,
  1_028583_000001_000001_000001_000003_000003_000003_000123_000023_000045_000359_001063_000847_003943_006113_023749_030323_010583,
  1_028584_000001_000003_000005_000015_000001_000055_000065_000149_000139_000217_000141_002425_007019_014127_011725_050821_052643,
  1_028595_000001_000003_000005_000015_000013_000013_000015_000093_000457_000869_000117_000585_007159_005957_015073_021861_118119,
  1_028597_000001_000003_000001_000015_000003_000031_000029_000245_000047_000895_000197_001169_000945_011503_026615_014079_027175,
  1_028604_000001_000003_000005_000005_000031_000001_000107_000109_000253_000999_001451_002243_006675_010779_026181_064597_016443,
  1_028607_000001_000003_000007_000015_000009_000053_000025_000041_000151_000197_001955_002365_005305_002901_024825_009595_057377,
  1_028609_000001_000003_000001_000003_000025_000037_000037_000193_000417_000373_001127_003239_004583_002861_014501_064163_030055,
  1_028612_000001_000003_000007_000009_000007_000021_000049_000231_000241_000095_001757_002281_002679_001611_011115_031743_026851,
  1_028630_000001_000003_000005_000005_000001_000001_000023_000173_000195_000593_001639_001449_004733_002451_012677_031959_128217,
  1_028640_000001_000001_000001_000007_000017_000049_000117_000253_000167_000721_000889_003027_007781_013521_015477_017981_095487,
  1_028669_000001_000001_000001_000015_000013_000047_000125_000009_000033_000567_001733_001263_000307_010285_006325_055827_039823,
  1_028677_000001_000001_000001_000015_000023_000003_000011_000169_000369_000667_000313_002287_006655_016067_005915_008605_092177,
  1_028682_000001_000003_000003_000015_000013_000021_000125_000111_000171_000785_000079_002281_001247_011321_030397_028555_084863,
  1_028690_000001_000001_000005_000013_000001_000031_000123_000097_000127_000245_001213_002381_003545_013545_028657_054087_079039,
  1_028695_000001_000001_000007_000009_000009_000021_000087_000111_000027_000033_000843_000199_001465_006555_008019_039521_098883,
  1_028696_000001_000003_000003_000005_000005_000055_000061_000219_000279_000207_001811_000667_002989_003133_025213_051979_087695,
  1_028717_000001_000001_000007_000003_000017_000011_000031_000097_000277_000385_000229_003045_000557_013521_032733_036831_043003,
  1_028730_000001_000003_000005_000013_000027_000057_000031_000207_000147_000405_001495_002471_004889_014861_004861_028185_062363,
  1_028737_000001_000001_000005_000013_000023_000019_000005_000021_000509_000299_001077_001747_006229_002375_017903_058473_072637,
  1_028752_000001_000003_000007_000011_000015_000061_000063_000165_000027_000461_001359_003375_003029_009907_017393_011097_043593,
  1_028761_000001_000003_000005_000001_000017_000029_000015_000005_000419_000019_001981_003169_002389_009169_031697_026201_006997,
  1_028774_000001_000003_000003_000001_000029_000031_000089_000079_000347_000707_000505_002087_002163_005465_008677_011421_093217,
  1_028783_000001_000003_000007_000009_000003_000023_000075_000215_000007_000971_000925_003223_007825_012347_019763_010927_041245,
  1_028791_000001_000003_000005_000005_000003_000043_000119_000079_000373_000761_000709_001897_003953_013895_013421_016939_112449,
  1_028801_000001_000001_000003_000015_000011_000025_000065_000101_000315_001005_001319_001163_000161_015331_004845_040375_121361,
  1_028802_000001_000001_000003_000007_000001_000057_000063_000131_000145_001007_000549_002327_001513_003591_010839_056297_080613,
  1_028814_000001_000001_000003_000005_000001_000019_000079_000081_000505_000945_000065_000319_006105_005491_013257_004651_048247,
  1_028837_000001_000003_000001_000009_000027_000041_000061_000041_000421_000707_001279_003699_002403_004075_016947_053435_002917,
  1_028838_000001_000001_000005_000013_000011_000029_000035_000141_000313_000769_000749_004025_002597_012197_032265_032159_037003,
  1_028842_000001_000003_000007_000011_000025_000063_000121_000015_000273_000877_000637_000409_005001_004723_027985_055501_043495,
  1_028844_000001_000003_000001_000013_000027_000029_000127_000065_000275_000967_001723_004007_006147_013277_008361_012305_095433,
  1_028849_000001_000003_000003_000013_000011_000045_000007_000101_000169_000361_000517_002897_004283_007587_007495_031549_029113]

def dirRows17_1_8 : List Nat := [
  1_028864_000001_000003_000003_000001_000009_000027_000065_000015_000279_000127_001039_000829_005739_001949_024789_030433_054503,
  1_028867_000001_000003_000007_000005_000013_000019_000095_000133_000025_000271_001527_003571_000101_015987_010985_055761_039833,
  1_028881_000001_000003_000005_000009_000027_000005_000037_000219_000249_000947_001063_004081_001763_015003_023753_003975_109803,
  1_028882_000001_000003_000003_000005_000021_000037_000035_000145_000323_000573_001939_000885_004645_004515_016815_028783_076017,
  1_028893_000001_000003_000007_000013_000027_000041_000039_000123_000423_000949_001487_002207_008069_015337_020671_020163_070667,
  1_028903_000001_000001_000003_000003_000015_000029_000069_000015_000151_000729_000035_002067_006715_012759_027611_054133_016561,
  1_028907_000001_000003_000007_000013_000021_000013_000007_000161_000327_000339_000535_002059_000413_011161_018415_012415_063713,
  1_028909_000001_000003_000005_000005_000023_000049_000009_000181_000417_000339_001013_001707_005097_013319_018951_056415_014397,
  1_028921_000001_000001_000005_000007_000029_000023_000117_000159_000287_000695_000071_002393_002655_006417_024349_020441_077987,
  1_028927_000001_000001_000005_000007_000031_000023_000081_000125_000145_000141_001459_004095_000713_001817_009263_021025_091983,
  1_028929_000001_000001_000001_000009_000017_000023_000091_000039_000459_000299_001951_003229_006229_003267_015883_031719_096573,
  1_028935_000001_000001_000001_000015_000003_000051_000009_000007_000455_000653_001447_000153_008117_000723_002177_009107_007757,
  1_028941_000001_000003_000001_000015_000027_000047_000049_000245_000499_000807_000175_001653_001693_003931_027479_030095_062353,
  1_028942_000001_000001_000005_000005_000023_000007_000015_000193_000499_000193_000201_002771_004153_011533_025883_023337_126685,
  1_028954_000001_000001_000001_000007_000009_000043_000125_000181_000425_000557_001401_002593_001933_006803_020021_032687_126465,
  1_028959_000001_000003_000003_000013_000027_000019_000099_000029_000395_000765_001137_002963_007397_009695_019259_027965_083157,
  1_028960_000001_000003_000007_000007_000017_000029_000007_000241_000005_000281_001489_001599_005567_004579_007739_041413_110571,
  1_028990_000001_000003_000003_000009_000007_000005_000083_000001_000231_001003_000631_002557_000831_006495_030409_053519_079331,
  1_028992_000001_000001_000005_000001_000007_000049_000045_000241_000201_000551_001645_002003_001455_003317_023639_007841_100765,
  1_029004_000001_000003_000005_000013_000025_000047_000103_000037_000081_000263_001143_000801_005863_006871_008615_057363_090161,
  1_029010_000001_000003_000007_000011_000027_000023_000119_000211_000473_000207_000605_000637_003369_007287_027827_025003_065925,
  1_029012_000001_000003_000001_000015_000027_000031_000097_000247_000075_000893_001099_003609_006807_004393_010253_062759_089971,
  1_029021_000001_000001_000007_000015_000027_000019_000043_000059_000419_000263_000387_003193_005589_004197_019143_064749_103093,
  1_029035_000001_000001_000007_000011_000021_000051_000097_000227_000251_000869_001927_002331_007741_008207_012885_013267_017945,
  1_029040_000001_000001_000007_000007_000005_000053_000041_000147_000075_000709_000607_001073_002853_008081_012797_005279_086083,
  1_029059_000001_000001_000005_000005_000015_000021_000077_000189_000269_000595_000197_003117_005073_014277_026867_049505_075755,
  1_029068_000001_000003_000005_000015_000013_000055_000001_000223_000135_000367_000735_003139_004851_009773_011699_019081_026011,
  1_029080_000001_000003_000005_000007_000009_000003_000089_000103_000321_000727_001809_003527_006881_002399_013593_027867_016219,
  1_029086_000001_000003_000003_000001_000023_000005_000053_000051_000403_000753_002037_001261_007575_002725_011341_018533_098767,
  1_029089_000001_000001_000001_000011_000001_000013_000037_000141_000477_000689_001789_001913_005753_006069_006965_055209_077329,
  1_029090_000001_000003_000007_000003_000017_000059_000079_000249_000381_000163_001773_001645_007295_002359_021889_028429_117073,
  1_029095_000001_000003_000005_000015_000007_000045_000059_000003_000093_000259_001257_002967_001175_010171_000873_051423_067437,
  1_029113_000001_000001_000007_000013_000017_000033_000053_000217_000159_000683_001169_003363_004591_003959_010089_035443_099677,
  1_029127_000001_000003_000007_000009_000003_000001_000005_000171_000017_000635_000369_001529_004861_004977_029303_042357_069309,
  1_029131_000001_000003_000007_000009_000021_000017_000077_000127_000105_000427_000525_001123_002365_007487_006315_064773_122747,
  1_029148_000001_000001_000001_000015_000019_000063_000065_000083_000219_000987_000169_002589_003809_008807_022473_006479_044617,
  1_029161_000001_000003_000001_000007_000011_000051_000107_000019_000379_000191_001013_003145_001501_011871_014111_018269_098247,
  1_029172_000001_000001_000007_000005_000017_000063_000023_000231_000423_000855_001955_000907_004553_016173_007701_040329_042047,
  1_029179_000001_000003_000007_000001_000007_000045_000103_000127_000185_000721_001035_000839_000691_006823_023819_050781_092767,
  1_029188_000001_000001_000001_000003_000009_000021_000057_000253_000285_000085_001227_000365_002347_007491_015183_008619_108819,
  1_029192_000001_000001_000003_000015_000027_000013_000005_000085_000045_001009_001315_001749_002797_003941_019367_050855_060693,
  1_029195_000001_000003_000005_000015_000029_000063_000115_000197_000317_000601_000711_000377_007489_004247_004843_056549_108447,
  1_029206_000001_000003_000007_000015_000011_000025_000007_000145_000371_000395_001743_000267_002609_015707_013909_055031_071115,
  1_029210_000001_000003_000001_000001_000001_000053_000111_000245_000433_000309_000245_000015_002091_009051_011095_031821_104535,
  1_029215_000001_000003_000001_000015_000025_000031_000099_000089_000259_000595_001095_003681_005105_008671_023663_029717_126429,
  1_029221_000001_000003_000007_000007_000005_000031_000015_000059_000109_000527_000257_001785_006799_001283_011741_034589_102397,
  1_029222_000001_000003_000003_000015_000009_000027_000055_000035_000291_000587_001281_000779_004615_000373_024037_064671_124019,
  1_029236_000001_000001_000005_000005_000013_000051_000049_000019_000037_000857_000539_001291_006021_008645_030351_033839_111515,
  1_029246_000001_000001_000005_000013_000003_000047_000009_000197_000019_000337_002025_003003_007179_005755_031187_059317_069753,
  1_029248_000001_000001_000007_000003_000003_000043_000011_000003_000123_000029_000857_003349_000791_011157_023967_033729_028445,
  1_029253_000001_000001_000005_000001_000001_000011_000073_000231_000173_000925_000331_000161_003303_011015_017507_021271_056865,
  1_029272_000001_000001_000003_000009_000021_000021_000115_000145_000421_000981_001789_003343_007591_012043_005795_017737_106501,
  1_029288_000001_000001_000007_000013_000007_000015_000051_000075_000497_000637_001073_001505_005613_001415_030861_026159_079573,
  1_029293_000001_000001_000003_000015_000017_000035_000017_000129_000169_000283_001383_000149_000211_001381_022205_028367_000831,
  1_029294_000001_000003_000005_000005_000017_000011_000127_000183_000503_000499_002011_002721_002717_003105_004731_060319_009361,
  1_029308_000001_000001_000001_000007_000027_000055_000077_000203_000255_000761_001159_002915_004479_013671_019757_065497_004461,
  1_029318_000001_000003_000001_000009_000009_000051_000067_000205_000445_000035_000371_001837_003623_010365_019463_059005_003185,
  1_029321_000001_000003_000007_000003_000023_000005_000051_000141_000293_000489_000263_002187_001259_002729_001779_061027_053931,
  1_029322_000001_000001_000001_000015_000027_000007_000015_000109_000475_000839_000175_000953_004531_000437_022475_024167_019051,
  1_029339_000001_000001_000007_000009_000025_000023_000041_000107_000299_000115_001713_001559_005701_005427_028813_039913_015941,
  1_029365_000001_000003_000005_000007_000005_000025_000099_000009_000307_000591_001303_003501_001589_012095_026629_052127_060635,
  1_029369_000001_000003_000007_000003_000009_000023_000003_000029_000113_000049_001601_000541_001415_011601_019165_046595_111623,
  1_029372_000001_000001_000003_000011_000005_000053_000037_000153_000051_000041_001267_000545_002055_013137_007749_030721_119591,
  1_029377_000001_000003_000005_000011_000001_000015_000065_000017_000155_000065_000745_002547_006351_002347_013553_005785_129857,
  1_029392_000001_000003_000007_000013_000005_000053_000011_000059_000453_000467_001275_003669_004481_005229_002953_023369_100161,
  1_029401_000001_000003_000001_000001_000013_000041_000091_000179_000331_000547_001571_001787_006467_012375_004579_045023_119149,
  1_029402_000001_000003_000003_000005_000017_000055_000105_000057_000227_000323_001517_001215_003149_013919_018595_005525_082445,
  1_029418_000001_000003_000001_000013_000019_000023_000017_000239_000081_000481_001625_002003_007295_002185_007021_019357_037867,
  1_029437_000001_000003_000005_000009_000011_000015_000061_000223_000153_000139_002023_002579_000495_014319_002835_026541_113115,
  1_029445_000001_000001_000003_000013_000029_000009_000013_000149_000325_000087_000697_002345_002205_005069_009939_061351_127313,
  1_029446_000001_000001_000007_000011_000013_000053_000045_000197_000167_000551_000439_003715_004587_008549_028193_035827_096721,
  1_029460_000001_000003_000001_000001_000017_000007_000031_000205_000219_000739_001165_000243_003877_015943_015207_043857_120565,
  1_029467_000001_000003_000007_000009_000007_000043_000081_000203_000295_000553_000279_002717_000009_000751_024715_021591_011485,
  1_029473_000001_000001_000001_000011_000015_000017_000041_000121_000355_000157_000955_003875_007595_000235_004937_020607_011401,
  1_029476_000001_000001_000007_000007_000013_000049_000033_000161_000065_000251_001895_002665_003017_009725_010797_046313_043407,
  1_029488_000001_000001_000003_000009_000023_000017_000127_000069_000385_000875_000461_003305_003001_005875_013547_061239_113571,
  1_029511_000001_000003_000007_000005_000015_000047_000113_000131_000465_000089_000733_000433_000799_005689_000723_063479_106945,
  1_029512_000001_000003_000003_000015_000029_000001_000051_000115_000317_001021_001219_001797_004005_010435_028935_049467_066833,
  1_029517_000001_000001_000003_000011_000015_000009_000051_000209_000477_000479_001099_002781_005525_012715_009067_018317_121671,
  1_029523_000001_000003_000001_000007_000019_000035_000061_000027_000479_000815_001639_002825_007449_013697_003079_049833_035119,
  1_029526_000001_000003_000007_000003_000017_000053_000095_000155_000505_000185_000717_003419_003857_002369_014525_022797_038553,
  1_029535_000001_000003_000001_000013_000027_000005_000011_000021_000507_000065_000039_002841_007887_002783_018767_034171_040527,
  1_029539_000001_000003_000001_000007_000009_000047_000069_000217_000251_000775_000631_001967_005541_010679_016439_033533_057817,
  1_029545_000001_000001_000005_000011_000027_000057_000103_000255_000359_000745_000063_003725_004113_010943_007833_046857_099239,
  1_029559_000001_000003_000001_000005_000031_000041_000069_000245_000401_000451_000959_000351_006999_006187_021437_055067_053547,
  1_029560_000001_000001_000001_000013_000025_000049_000085_000181_000457_000731_000743_001901_007013_012027_014729_024193_089685,
  1_029589_000001_000003_000003_000001_000031_000029_000101_000137_000117_000135_000345_001419_007133_002695_003631_053049_045875,
  1_029593_000001_000001_000001_000013_000011_000051_000095_000221_000339_000655_000201_003007_008179_008093_022399_059123_127319,
  1_029599_000001_000003_000007_000003_000031_000037_000023_000199_000191_000649_000817_001959_000893_002333_021477_029087_115667,
  1_029603_000001_000003_000003_000005_000009_000055_000123_000067_000039_000533_000797_002575_003955_014585_028587_013079_060053,
  1_029610_000001_000003_000001_000001_000017_000019_000015_000219_000185_000021_000967_000667_003361_003883_008059_026199_080913,
  1_029629_000001_000003_000003_000011_000023_000005_000099_000057_000379_000151_000271_003735_007087_012731_002949_054831_037835,
  1_029644_000001_000003_000001_000007_000021_000025_000009_000195_000497_000585_000901_000019_007675_013611_031155_014567_020545,
  1_029656_000001_000001_000003_000003_000027_000045_000051_000169_000397_000531_000673_002935_003779_007169_023479_016157_100237,
  1_029662_000001_000001_000001_000001_000019_000049_000003_000075_000455_000805_000591_001929_002883_002797_031379_012025_120929,
  1_029675_000001_000003_000005_000003_000017_000039_000115_000093_000341_000329_001857_002753_004923_012539_025589_019437_029027,
  1_029692_000001_000003_000005_000009_000027_000037_000021_000235_000499_000369_001341_003719_006819_003153_030619_050901_052999,
  1_029704_000001_000003_000001_000011_000003_000055_000043_000219_000083_000771_000783_003569_007879_002363_030605_005965_126855,
  1_029707_000001_000003_000007_000013_000007_000025_000111_000063_000355_000317_001579_001523_002733_011963_025205_020545_067389,
  1_029715_000001_000003_000005_000007_000003_000017_000055_000099_000321_000633_002013_001991_001019_009223_021117_023337_090589]

def dirRows17_1_9 : List Nat := [
  1_029717_000001_000003_000001_000001_000017_000025_000079_000171_000303_000403_002037_002595_003951_008021_008669_009363_020345,
  1_029722_000001_000001_000001_000007_000013_000007_000011_000007_000347_000053_001763_003097_003353_003769_022947_020919_092247,
  1_029731_000001_000003_000005_000011_000019_000029_000091_000191_000511_000705_001317_003367_000007_004999_030251_018299_066983,
  1_029740_000001_000001_000003_000007_000019_000017_000071_000077_000285_000189_000853_002305_004205_015603_015501_048073_011411,
  1_029743_000001_000003_000007_000005_000021_000015_000047_000013_000277_000969_001861_003493_006723_011521_022145_043779_044713,
  1_029752_000001_000001_000003_000005_000019_000047_000051_000207_000229_000957_000709_000267_008081_000611_026403_014871_111841,
  1_029760_000001_000003_000007_000001_000019_000043_000071_000073_000405_000351_001131_003527_005949_014363_020041_048123_068123,
  1_029766_000001_000003_000003_000007_000023_000051_000081_000013_000161_000453_000365_001089_003505_012359_014277_056113_019717,
  1_029770_000001_000001_000001_000007_000029_000035_000103_000137_000317_000417_001465_002787_006935_009885_012943_043937_028353,
  1_029794_000001_000001_000003_000013_000019_000037_000097_000005_000115_000089_001005_003033_002011_002633_010615_006641_073385,
  1_029796_000001_000003_000007_000007_000031_000039_000107_000165_000061_001009_001159_000865_003469_011093_010425_043959_037395,
  1_029814_000001_000003_000005_000009_000007_000051_000099_000091_000037_000457_000039_002455_007481_004929_029755_050603_048943,
  1_029817_000001_000001_000005_000013_000005_000039_000047_000149_000341_000303_000843_003619_007527_008739_005893_042623_099899,
  1_029829_000001_000001_000001_000001_000001_000041_000073_000071_000409_000351_000131_000515_006657_000337_023913_000583_021665,
  1_029841_000001_000001_000003_000003_000011_000045_000039_000113_000315_000965_001605_002779_000501_007429_002567_007011_071445,
  1_029851_000001_000003_000007_000013_000021_000013_000045_000105_000385_000281_001683_003997_006391_010943_022349_037261_057555,
  1_029860_000001_000001_000003_000005_000017_000055_000109_000071_000393_000561_000433_001091_001923_013861_012981_005523_015467,
  1_029864_000001_000003_000007_000005_000017_000011_000113_000119_000037_000989_001609_002191_001511_011835_025423_000793_015227,
  1_029869_000001_000003_000001_000005_000005_000055_000105_000225_000349_000351_001259_001309_000821_002733_001357_003665_038863,
  1_029870_000001_000003_000005_000001_000023_000061_000049_000113_000169_000319_000085_001581_000097_005271_030625_037693_007297,
  1_029889_000001_000003_000005_000001_000001_000025_000031_000125_000307_000731_001815_001047_007251_012481_020781_063275_051985,
  1_029896_000001_000003_000005_000009_000011_000009_000121_000111_000045_000751_000793_002593_006409_004355_030183_036959_105161,
  1_029901_000001_000001_000003_000009_000025_000037_000095_000253_000401_000481_001521_003555_000231_015459_001581_036661_121727,
  1_029913_000001_000003_000005_000003_000027_000011_000107_000115_000213_000813_000027_001789_000603_000383_001129_063365_051147,
  1_029919_000001_000001_000003_000013_000025_000007_000033_000001_000097_000907_000035_004069_005001_000507_000911_062037_022019,
  1_029920_000001_000001_000003_000005_000007_000055_000035_000095_000261_000217_001565_003473_003475_012181_000569_027389_081771,
  1_029947_000001_000001_000003_000005_000011_000033_000095_000121_000453_000711_000361_003927_005231_015685_031143_056915_023707,
  1_029958_000001_000001_000003_000011_000025_000015_000053_000155_000469_000647_001547_000335_003753_012873_013639_025129_079287,
  1_029975_000001_000003_000003_000003_000001_000021_000021_000121_000105_000903_000083_002287_004295_014369_029183_026841_038115,
  1_029981_000001_000001_000007_000011_000005_000029_000065_000191_000389_000419_001315_000739_003485_010587_002399_036377_028789,
  1_029985_000001_000003_000003_000011_000003_000029_000071_000169_000265_000747_000395_001211_003487_015705_025611_018183_085771,
  1_029998_000001_000001_000007_000003_000023_000005_000045_000047_000337_000571_000033_001221_005671_001233_028361_036945_000911,
  1_030010_000001_000001_000005_000011_000017_000015_000057_000097_000185_000999_001277_003371_002785_003341_013395_011925_086777,
  1_030012_000001_000001_000003_000001_000031_000037_000023_000105_000503_000869_001309_003733_004629_008263_011763_030669_026179,
  1_030044_000001_000001_000003_000015_000025_000061_000037_000027_000325_000413_000809_002959_008137_003397_021185_027995_084297,
  1_030048_000001_000003_000005_000005_000001_000055_000095_000041_000493_000469_000331_001789_007037_007947_014239_016109_051795,
  1_030051_000001_000001_000001_000001_000019_000033_000111_000237_000261_000331_000871_003539_001731_006953_011345_037901_005623,
  1_030063_000001_000001_000005_000007_000021_000041_000049_000179_000049_000797_000231_001299_000145_007743_000725_060595_019581,
  1_030065_000001_000003_000007_000015_000007_000043_000067_000219_000133_000641_001657_002301_001591_012309_006395_003999_092961,
  1_030072_000001_000001_000001_000005_000001_000049_000037_000081_000219_000323_000461_001379_001797_014825_021811_007347_035643,
  1_030077_000001_000001_000001_000011_000001_000003_000083_000031_000307_000083_001169_003277_001875_013397_020265_046707_015205,
  1_030087_000001_000003_000007_000011_000029_000041_000069_000033_000405_000991_001937_001217_002137_008657_004319_041119_043371,
  1_030088_000001_000003_000003_000003_000025_000049_000107_000197_000347_000923_001585_003023_004087_013875_022015_035733_033755,
  1_030101_000001_000003_000003_000005_000015_000061_000089_000249_000141_000853_001469_000999_007425_010015_012341_051535_061619,
  1_030112_000001_000001_000007_000013_000031_000061_000089_000113_000117_000429_001011_001589_001419_005083_004843_026759_047401,
  1_030121_000001_000001_000007_000009_000017_000037_000119_000039_000499_000093_001155_003069_002033_012483_029849_040077_011103,
  1_030122_000001_000003_000001_000015_000011_000005_000023_000121_000283_000717_001573_003911_002031_002617_020387_033157_000301,
  1_030130_000001_000003_000005_000007_000017_000061_000109_000003_000205_000617_001171_000223_006609_015027_002629_015801_073749,
  1_030135_000001_000001_000003_000007_000005_000049_000009_000073_000333_000401_000675_002765_000993_000077_019237_060929_088703,
  1_030139_000001_000001_000001_000009_000021_000025_000053_000249_000241_000043_001959_000545_003729_011395_003027_012661_087729,
  1_030142_000001_000003_000003_000015_000015_000061_000033_000059_000155_000773_001043_003111_006549_005397_029099_057851_107671,
  1_030164_000001_000003_000007_000001_000029_000029_000001_000161_000273_000883_001913_002389_000401_009425_017613_050443_084601,
  1_030167_000001_000003_000007_000011_000015_000063_000041_000053_000371_000153_001491_003013_006635_004955_030145_020175_016541,
  1_030180_000001_000003_000003_000011_000031_000027_000127_000207_000011_000313_001067_003445_003075_004071_028305_058911_085273,
  1_030202_000001_000001_000007_000011_000017_000047_000077_000119_000209_000657_001181_000459_005821_004267_005757_053703_035621,
  1_030211_000001_000003_000001_000015_000027_000041_000003_000217_000457_000531_001749_002847_004715_011451_025071_053999_093503,
  1_030214_000001_000003_000005_000003_000019_000029_000009_000177_000355_000265_000883_001113_002397_001819_020757_050389_095551,
  1_030217_000001_000001_000003_000015_000003_000045_000085_000211_000377_000293_001791_001193_001117_009383_028039_027155_129513,
  1_030223_000001_000001_000007_000005_000001_000017_000059_000215_000161_000933_001653_002407_002693_003655_007515_002239_088985,
  1_030228_000001_000001_000003_000011_000031_000003_000001_000077_000459_000817_000651_000603_001711_009391_020607_048195_127153,
  1_030235_000001_000001_000005_000013_000011_000049_000025_000013_000051_000443_001877_001257_000163_004673_030313_018841_024547,
  1_030256_000001_000001_000007_000007_000015_000033_000043_000079_000127_000625_001991_001311_002095_014659_003477_056023_057955,
  1_030265_000001_000003_000007_000015_000029_000007_000119_000183_000123_000323_001723_000959_002733_002097_002927_057595_086067,
  1_030286_000001_000003_000005_000005_000029_000057_000093_000139_000495_000739_001715_000713_000243_002027_011223_044143_119155,
  1_030293_000001_000003_000001_000009_000003_000063_000113_000029_000019_000439_000869_001101_004947_002191_014737_057049_093505,
  1_030298_000001_000001_000007_000001_000011_000039_000027_000029_000281_000829_001979_002185_002207_014969_007447_055541_059593,
  1_030310_000001_000001_000007_000013_000011_000015_000015_000143_000383_000469_001439_002823_007489_007675_015433_026203_080433,
  1_030314_000001_000001_000001_000007_000015_000045_000023_000093_000477_000001_001431_003173_007879_012211_013051_056971_114289,
  1_030327_000001_000003_000001_000001_000027_000055_000061_000185_000323_000569_001063_001357_007373_014947_015967_064517_104625,
  1_030333_000001_000001_000005_000011_000025_000001_000127_000163_000419_000657_000911_000361_003675_010765_024565_002661_061979,
  1_030334_000001_000003_000007_000015_000029_000053_000029_000149_000465_000535_001865_002243_004783_009327_024843_052313_015683,
  1_030337_000001_000001_000007_000007_000017_000007_000085_000187_000091_001013_001917_002959_003571_012047_025267_034095_009877,
  1_030338_000001_000001_000001_000007_000005_000027_000111_000107_000313_000571_001081_003193_001025_002589_001523_040453_077065,
  1_030344_000001_000003_000007_000001_000019_000027_000001_000103_000479_000405_000583_001737_003495_009093_020397_016429_045609,
  1_030349_000001_000001_000003_000011_000017_000001_000125_000097_000261_000651_000901_001245_001181_014469_016229_031935_100227,
  1_030352_000001_000001_000007_000011_000015_000001_000019_000151_000453_000833_001371_001109_005373_000025_005619_058351_026349,
  1_030362_000001_000001_000007_000015_000017_000055_000051_000067_000123_000013_001873_001035_005871_011943_011543_043261_062587,
  1_030374_000001_000003_000001_000013_000021_000015_000083_000205_000333_000379_002021_001389_000861_010395_020587_038207_049109,
  1_030380_000001_000001_000005_000003_000013_000049_000089_000085_000463_001005_001367_003487_000581_012145_022445_035343_065745,
  1_030388_000001_000003_000003_000003_000029_000027_000099_000195_000089_000793_001677_003989_004811_008303_009165_050349_096947,
  1_030391_000001_000001_000003_000005_000029_000011_000091_000107_000013_000659_000213_001613_002245_011567_028157_002937_053275,
  1_030395_000001_000003_000007_000005_000003_000041_000065_000027_000093_000747_001143_000505_003881_002123_002903_054137_096185,
  1_030403_000001_000001_000003_000015_000009_000049_000003_000025_000077_000681_001709_000915_002243_002127_018243_013915_067399,
  1_030409_000001_000003_000005_000007_000013_000049_000089_000067_000063_000271_001651_000897_004035_001067_013743_056791_044371,
  1_030424_000001_000001_000007_000009_000025_000019_000125_000015_000125_000705_001359_000817_001241_012447_019097_033209_089091,
  1_030427_000001_000003_000007_000003_000019_000043_000127_000197_000039_000709_000257_003547_003069_001187_021255_006453_040763,
  1_030430_000001_000003_000003_000005_000003_000053_000037_000065_000415_000183_000991_000533_007805_009905_018925_052665_100987,
  1_030451_000001_000003_000003_000011_000017_000041_000017_000137_000143_000277_000945_001531_007427_007287_030869_027651_116507,
  1_030460_000001_000001_000001_000003_000013_000003_000009_000163_000113_000373_001909_001051_000097_010729_028615_040081_129297,
  1_030475_000001_000003_000003_000009_000011_000047_000113_000027_000307_000339_001319_003083_007383_001551_026691_028769_114313,
  1_030480_000001_000003_000007_000007_000025_000049_000031_000231_000485_000629_000059_000283_007463_006603_023055_063643_010121,
  1_030485_000001_000003_000007_000009_000005_000055_000053_000127_000147_000103_001697_000485_007051_014153_021631_035561_010393,
  1_030486_000001_000003_000003_000007_000023_000007_000083_000017_000135_000487_000315_000719_007003_003919_013255_024031_110493,
  1_030489_000001_000003_000001_000015_000027_000055_000121_000177_000205_000733_000933_001535_002925_004259_022203_059059_089209,
  1_030492_000001_000001_000001_000011_000009_000011_000127_000047_000493_000349_001415_003089_004739_014347_031579_020739_072997,
  1_030499_000001_000003_000001_000007_000009_000031_000121_000111_000163_000733_001699_001507_005467_013499_025269_006303_070201,
  1_030511_000001_000003_000001_000005_000007_000023_000123_000203_000329_000387_000577_002331_002283_014029_019409_000103_002477,
  1_030533_000001_000001_000007_000015_000011_000029_000029_000153_000289_000333_001669_002065_005465_008835_028753_021209_034283,
  1_030534_000001_000003_000005_000011_000015_000033_000045_000081_000241_000461_001167_001073_005511_000795_030955_049121_042805,
  1_030540_000001_000001_000001_000013_000007_000033_000011_000201_000161_000475_001359_002329_000177_009883_008967_021399_073045]

def dirRows17_1_10 : List Nat := [
  1_030545_000001_000003_000003_000001_000025_000059_000085_000051_000481_000751_001213_003019_000421_009903_030071_050661_094715,
  1_030552_000001_000003_000003_000001_000005_000061_000003_000179_000131_000233_001627_003577_006323_014161_021595_044963_020215,
  1_030557_000001_000001_000001_000005_000009_000053_000045_000105_000275_000769_000105_002757_006769_014987_019955_018291_081707,
  1_030558_000001_000001_000007_000001_000001_000059_000033_000019_000385_000775_000423_001799_001325_013545_016027_058347_102397,
  1_030567_000001_000001_000003_000011_000015_000061_000063_000059_000355_000659_001483_003781_007383_005563_032537_034175_040303,
  1_030568_000001_000003_000005_000007_000005_000037_000019_000223_000323_000129_000287_002655_003767_016201_004147_000315_054885,
  1_030581_000001_000001_000007_000013_000013_000023_000043_000129_000405_000205_001691_002189_003313_011789_010263_016367_065547,
  1_030597_000001_000003_000005_000001_000015_000021_000085_000233_000427_000071_000475_003731_003335_011483_028613_004335_035669,
  1_030607_000001_000001_000003_000003_000031_000047_000027_000109_000373_000451_001459_003103_001941_010405_020233_030517_122787,
  1_030621_000001_000003_000001_000007_000003_000011_000113_000049_000355_000465_001959_001355_006521_010863_011481_013385_031787,
  1_030632_000001_000003_000001_000001_000009_000045_000125_000069_000267_000413_000717_002767_000833_000317_023019_037753_003081,
  1_030650_000001_000001_000007_000007_000013_000055_000075_000105_000071_000505_000239_003739_004873_004257_018841_041711_024045,
  1_030655_000001_000001_000005_000013_000021_000059_000107_000229_000421_000441_001079_003727_007941_008443_030433_056419_105751,
  1_030657_000001_000001_000001_000009_000015_000059_000029_000049_000117_001009_001971_000115_002899_001069_029145_011855_035277,
  1_030660_000001_000003_000007_000015_000019_000055_000111_000077_000169_000537_001695_002687_003871_014017_015119_027313_112807,
  1_030669_000001_000001_000003_000007_000029_000005_000041_000201_000211_000127_001877_000643_002441_008743_029393_006077_052597,
  1_030675_000001_000003_000001_000011_000007_000001_000095_000015_000229_000339_000475_003463_007827_009943_030903_065013_001145,
  1_030678_000001_000001_000001_000005_000023_000019_000081_000023_000475_000169_000373_001147_001805_012779_013173_008945_028175,
  1_030682_000001_000003_000005_000009_000003_000053_000127_000033_000237_000803_000121_000307_004981_008765_012761_023601_092921,
  1_030687_000001_000001_000003_000007_000017_000063_000011_000037_000213_000619_001095_001693_006747_007373_017355_005987_097923,
  1_030688_000001_000001_000003_000015_000011_000037_000109_000175_000503_000339_000591_002745_002387_007419_013915_004769_048229,
  1_030698_000001_000003_000005_000007_000019_000017_000005_000081_000471_000989_000249_000437_007309_005747_025277_031911_087907,
  1_030711_000001_000003_000001_000007_000015_000025_000049_000243_000423_000911_001957_000911_006331_009831_026021_058877_099257,
  1_030728_000001_000003_000005_000011_000003_000055_000039_000129_000271_000145_001973_003391_002905_009229_007989_015641_067933,
  1_030733_000001_000003_000005_000009_000013_000013_000043_000135_000183_000319_001391_002953_002207_014205_031203_006329_098907,
  1_030741_000001_000003_000001_000009_000027_000041_000027_000155_000011_000191_001747_000975_007043_013139_030387_047099_120321,
  1_030746_000001_000001_000005_000009_000025_000027_000053_000235_000437_000077_000371_002413_004867_014245_027199_037387_088217,
  1_030752_000001_000001_000007_000007_000011_000059_000103_000015_000109_000065_001987_003695_007737_007341_026963_016075_006301,
  1_030764_000001_000003_000007_000005_000007_000059_000109_000159_000121_000377_001851_003983_005421_007633_007321_014869_054633,
  1_030769_000001_000001_000003_000015_000021_000051_000035_000243_000397_000411_001107_003689_007913_014715_026349_023361_090665,
  1_030784_000001_000001_000001_000003_000005_000011_000077_000205_000187_000981_001969_001749_006295_008267_016073_054451_103603,
  1_030796_000001_000003_000003_000009_000011_000013_000113_000083_000243_001021_002003_002277_006457_010535_013461_052741_009385,
  1_030799_000001_000003_000003_000011_000019_000009_000103_000013_000219_000269_001805_002689_005219_011497_004909_057985_040141,
  1_030804_000001_000001_000001_000001_000029_000025_000015_000217_000069_000567_000839_001515_003627_009837_021433_037177_010487,
  1_030811_000001_000001_000007_000015_000015_000023_000119_000217_000277_000447_000551_000825_007571_003083_016573_001189_064959,
  1_030814_000001_000001_000003_000011_000009_000013_000063_000077_000313_000195_000941_001621_000165_008905_020265_053761_025091,
  1_030818_000001_000003_000003_000009_000017_000005_000009_000183_000175_001015_000253_000233_002883_015587_027175_038517_022707,
  1_030827_000001_000003_000003_000011_000023_000063_000083_000017_000049_000671_000749_003249_007821_007189_026735_028995_101737,
  1_030838_000001_000001_000007_000005_000025_000015_000097_000247_000161_000585_001307_003803_001105_009093_023523_001383_065671,
  1_030842_000001_000001_000003_000015_000029_000051_000065_000237_000349_000709_000799_001425_006267_006283_004773_018123_074833,
  1_030854_000001_000001_000005_000005_000011_000013_000009_000251_000373_000189_000467_000945_007279_011349_010917_006581_083967,
  1_030863_000001_000001_000007_000015_000023_000027_000001_000197_000041_000325_000757_001229_006295_000345_026147_040135_123063,
  1_030865_000001_000001_000007_000009_000023_000009_000093_000225_000191_000837_000103_003367_005411_008289_007057_055391_010669,
  1_030877_000001_000001_000005_000015_000021_000017_000049_000221_000487_000023_001943_001563_006157_004035_027769_014933_056913,
  1_030881_000001_000001_000005_000013_000013_000043_000067_000245_000457_000365_001115_002205_006229_004173_025167_056333_055605,
  1_030887_000001_000001_000005_000011_000015_000059_000109_000083_000017_000913_000497_001299_005221_000321_032139_013717_094311,
  1_030908_000001_000003_000003_000003_000031_000011_000005_000203_000003_000843_002039_000025_006211_014927_006015_046269_090369,
  1_030916_000001_000001_000003_000009_000021_000051_000091_000203_000149_000147_000197_001771_002921_006609_002343_035249_012963,
  1_030919_000001_000003_000001_000007_000017_000043_000091_000229_000107_000521_000737_002355_005855_006707_021217_047041_081833,
  1_030925_000001_000003_000003_000007_000007_000031_000097_000135_000503_000665_001799_002937_006867_004125_007375_034401_018111,
  1_030928_000001_000001_000007_000001_000011_000029_000089_000185_000495_000633_000507_003727_005999_005871_005911_024877_010259,
  1_030944_000001_000001_000001_000013_000025_000003_000025_000065_000091_000411_000147_003699_007003_003017_025635_056619_101491,
  1_030947_000001_000003_000005_000007_000031_000001_000063_000255_000115_000179_000087_000735_001649_004767_031093_060149_049829,
  1_030950_000001_000001_000003_000001_000021_000063_000067_000085_000399_000279_001963_001759_004679_015423_011533_054387_036563,
  1_030968_000001_000003_000005_000003_000031_000053_000073_000073_000481_000443_001393_002763_001199_005375_008977_005369_114603,
  1_030971_000001_000001_000001_000003_000029_000047_000073_000205_000469_000187_000815_002787_001431_004705_011455_053643_089269,
  1_030973_000001_000003_000003_000009_000027_000057_000093_000055_000287_000539_001259_003279_001563_011399_022975_027077_041031,
  1_030976_000001_000001_000003_000015_000007_000027_000067_000025_000169_000263_000621_001921_000509_011715_015363_027447_075535,
  1_030986_000001_000001_000001_000009_000029_000063_000031_000099_000321_000361_001693_000763_005593_010815_000741_031257_070843,
  1_030993_000001_000001_000001_000009_000001_000017_000073_000141_000401_000549_000415_001289_001697_001903_008919_059563_060017,
  1_030994_000001_000003_000007_000003_000005_000051_000127_000221_000009_000929_000153_001045_006587_013653_005343_014043_116125,
  1_031012_000001_000003_000003_000013_000013_000017_000029_000093_000465_000059_001207_003121_006331_008647_005047_041869_051969,
  1_031016_000001_000001_000001_000015_000023_000029_000047_000149_000119_000855_000367_001419_007739_001141_019787_038185_084403,
  1_031029_000001_000003_000001_000009_000029_000063_000005_000063_000435_000401_001023_001981_006819_007547_030065_033833_007471,
  1_031039_000001_000003_000001_000015_000001_000047_000035_000161_000243_000225_000935_002179_007737_007841_028523_011505_103741,
  1_031041_000001_000001_000007_000003_000007_000057_000073_000055_000101_000905_001705_004057_003781_008213_018997_017185_033265,
  1_031042_000001_000001_000005_000001_000007_000057_000031_000077_000323_000395_000927_001969_006973_009013_030789_000757_084075,
  1_031044_000001_000001_000003_000007_000015_000053_000051_000205_000401_000679_001295_001955_007739_011423_023207_055449_060419,
  1_031053_000001_000003_000005_000011_000023_000021_000067_000141_000157_000767_000219_003607_001847_011051_031499_008461_106353,
  1_031059_000001_000001_000003_000009_000017_000019_000123_000169_000001_000031_001019_001823_006043_001895_017293_062079_016945,
  1_031062_000001_000003_000005_000009_000003_000015_000049_000027_000183_000293_000989_002161_001845_001103_020149_011121_031935,
  1_031077_000001_000003_000001_000003_000017_000039_000103_000045_000491_000091_000413_000487_001381_005457_022503_040477_094297,
  1_031095_000001_000001_000003_000007_000029_000011_000087_000079_000349_000437_000945_003753_006691_004373_024875_054397_033697,
  1_031101_000001_000001_000007_000001_000009_000031_000105_000121_000097_000947_000129_001909_002371_005493_029523_052685_024325,
  1_031105_000001_000001_000005_000009_000019_000021_000063_000115_000511_000525_000049_001879_006075_008181_010135_056785_053309,
  1_031118_000001_000001_000005_000015_000003_000055_000075_000135_000451_000697_001407_002765_002443_011589_024863_047187_098477,
  1_031129_000001_000001_000001_000013_000027_000037_000077_000157_000121_000603_000491_002201_000619_009157_032511_019843_049919,
  1_031132_000001_000001_000003_000001_000023_000017_000023_000115_000119_000349_000987_002587_001847_012099_031955_031685_001989,
  1_031141_000001_000003_000007_000007_000005_000047_000063_000209_000069_000921_001041_001391_007485_011121_030993_005691_074551,
  1_031159_000001_000003_000001_000003_000023_000061_000055_000253_000355_000299_000971_000279_003543_010073_005199_050539_088303,
  1_031183_000001_000001_000001_000011_000013_000019_000007_000255_000189_000267_002021_000093_000219_010537_028627_058141_053675,
  1_031185_000001_000003_000003_000007_000027_000061_000083_000095_000163_000777_001533_002485_007211_006979_004013_020797_091411,
  1_031195_000001_000001_000007_000013_000015_000037_000005_000109_000133_000225_000059_003855_003351_000659_024321_063531_015573,
  1_031202_000001_000001_000005_000001_000007_000055_000059_000213_000045_000077_002003_002921_001105_011089_017197_045459_067681,
  1_031213_000001_000001_000001_000005_000013_000021_000107_000245_000505_000409_001453_001201_006945_002103_007377_059413_008785,
  1_031238_000001_000001_000001_000013_000005_000037_000073_000055_000039_000219_000225_003877_006583_003105_025355_014839_023435,
  1_031241_000001_000001_000007_000001_000021_000035_000087_000227_000487_000767_000609_001685_002731_010135_000381_024021_122137,
  1_031252_000001_000001_000001_000003_000029_000013_000019_000255_000355_000505_001757_003537_003029_011403_022685_061169_000397,
  1_031262_000001_000001_000007_000001_000029_000043_000011_000207_000083_000097_000435_001453_004709_004193_018517_047203_003255,
  1_031265_000001_000001_000001_000001_000021_000049_000039_000163_000459_000849_000561_001207_004109_001435_017519_014839_001331,
  1_031295_000001_000001_000003_000011_000027_000035_000065_000219_000135_000559_001111_002959_007835_005165_026641_022765_121829,
  1_031300_000001_000003_000005_000003_000023_000031_000057_000149_000431_000451_000189_001771_005877_003503_007531_046485_129031,
  1_031303_000001_000001_000003_000011_000001_000013_000047_000017_000331_001003_000215_002797_000689_006289_012719_037139_035827,
  1_031317_000001_000003_000005_000009_000019_000013_000011_000029_000275_000165_000783_000313_002153_006009_002247_005699_128753,
  1_031318_000001_000001_000007_000013_000005_000043_000051_000075_000411_000743_000335_000217_000559_015389_006567_041193_127443,
  1_031324_000001_000003_000005_000015_000005_000063_000007_000145_000445_000835_000825_000035_005951_005121_016365_036789_002941,
  1_031338_000001_000003_000005_000005_000029_000001_000061_000019_000427_000245_000445_003505_003647_008817_008031_064577_060745,
  1_031340_000001_000001_000003_000009_000029_000009_000035_000225_000055_000535_001537_000831_006483_016123_026079_032809_062227,
  1_031345_000001_000003_000007_000007_000025_000033_000015_000061_000343_000749_001963_002763_003171_006755_006529_049449_088903,
  1_031355_000001_000001_000007_000013_000017_000035_000091_000119_000087_001023_001101_001785_002005_015947_021679_063179_003389]

def dirRows17_1_11 : List Nat := [
  1_031362_000001_000003_000001_000001_000001_000001_000123_000195_000315_000681_000153_001621_005097_003669_020505_039305_127065,
  1_031371_000001_000001_000005_000011_000001_000017_000073_000251_000185_000059_001723_002321_002103_006331_029571_063811_066651,
  1_031373_000001_000001_000007_000013_000015_000019_000111_000091_000211_000085_000711_002197_003107_002717_016725_052995_065791,
  1_031381_000001_000003_000003_000009_000021_000041_000053_000145_000459_000155_000093_002833_006747_000737_030625_040581_065825,
  1_031391_000001_000003_000003_000003_000001_000045_000119_000081_000185_000431_001221_003043_007277_010537_012355_042261_126117,
  1_031409_000001_000003_000007_000007_000011_000047_000037_000041_000123_000643_000707_002963_006183_015527_010951_024031_038187,
  1_031410_000001_000003_000001_000007_000013_000057_000001_000149_000117_000627_001999_002805_004857_012805_031453_025699_109447,
  1_031412_000001_000003_000005_000003_000009_000037_000083_000221_000077_000573_000661_000465_001279_007355_024061_036151_096595,
  1_031434_000001_000001_000007_000015_000029_000031_000125_000205_000449_000563_001263_003427_008013_014025_015235_011833_025601,
  1_031458_000001_000003_000007_000011_000031_000035_000099_000193_000163_000527_001455_000395_004853_002561_011909_057311_101007,
  1_031467_000001_000001_000005_000003_000017_000039_000099_000173_000497_000245_001671_003457_000083_011959_002963_003401_102259,
  1_031470_000001_000001_000001_000005_000025_000041_000119_000081_000301_000797_000661_002543_001195_002111_001785_041533_051947,
  1_031475_000001_000003_000003_000013_000005_000059_000061_000153_000213_000541_001849_000249_003897_003877_017095_006857_076781,
  1_031481_000001_000003_000007_000001_000019_000013_000057_000047_000359_000165_001085_002263_003261_012825_017405_025853_020731,
  1_031482_000001_000001_000001_000007_000007_000043_000007_000065_000051_000503_000173_001023_000283_014809_001183_033497_110683,
  1_031484_000001_000003_000005_000011_000019_000051_000029_000157_000159_000191_001293_002951_006569_012433_014587_030631_030485,
  1_031492_000001_000003_000007_000005_000001_000027_000025_000221_000255_000471_000779_003991_006985_001803_028451_033403_005567,
  1_031507_000001_000001_000005_000005_000007_000029_000055_000241_000457_000863_001715_003393_004127_013985_006313_013683_114837,
  1_031514_000001_000003_000005_000005_000011_000027_000055_000109_000247_000199_001593_002881_000307_000097_024751_035921_121931,
  1_031538_000001_000003_000001_000013_000003_000059_000017_000161_000047_000467_001019_003629_003017_015645_003983_032393_079213,
  1_031547_000001_000001_000003_000011_000019_000057_000067_000199_000319_000107_002043_002045_004025_005733_029979_037721_117031,
  1_031549_000001_000003_000007_000011_000009_000023_000031_000081_000177_000801_001177_003451_007777_015351_007579_039033_023847,
  1_031555_000001_000001_000003_000005_000017_000061_000063_000007_000371_000905_001147_001383_004075_006721_017503_032015_112547,
  1_031557_000001_000001_000003_000013_000013_000025_000069_000159_000049_000133_000227_002155_001603_010077_003429_039131_018949,
  1_031597_000001_000003_000005_000003_000029_000005_000115_000093_000243_000791_001113_002841_004733_003041_031733_028539_084567,
  1_031598_000001_000003_000003_000007_000021_000009_000005_000095_000489_000517_001453_002697_007951_012369_019571_029811_051805,
  1_031610_000001_000001_000005_000009_000001_000029_000097_000191_000073_000357_000745_002787_007815_004565_019761_033729_086849,
  1_031625_000001_000003_000005_000013_000003_000005_000035_000079_000387_000813_001673_003187_000337_005539_006761_046903_122967,
  1_031634_000001_000001_000007_000011_000001_000015_000125_000175_000255_000035_000145_002391_000887_010505_011587_053941_005089,
  1_031643_000001_000001_000007_000013_000009_000013_000015_000215_000361_000227_001665_003345_003615_014031_016281_004457_052037,
  1_031645_000001_000003_000005_000009_000031_000021_000003_000189_000211_000855_001781_002097_001345_006763_027651_054137_052689,
  1_031659_000001_000003_000001_000005_000029_000009_000099_000183_000183_000205_000149_000053_007179_003387_009603_004281_047145,
  1_031669_000001_000003_000001_000011_000013_000035_000097_000021_000029_000877_000191_001621_002501_004283_001707_048957_129029,
  1_031670_000001_000003_000001_000009_000005_000019_000057_000219_000105_000467_001179_003155_007743_004835_014845_035671_047655,
  1_031682_000001_000003_000001_000007_000027_000041_000027_000185_000271_000611_001173_002875_000529_011619_020231_018741_041799,
  1_031694_000001_000003_000007_000013_000009_000003_000035_000071_000467_000689_001797_000319_006657_013193_015861_007567_012891,
  1_031717_000001_000001_000007_000013_000019_000057_000025_000141_000195_000995_000859_000811_004685_006711_008963_049657_054751,
  1_031718_000001_000001_000001_000011_000027_000025_000009_000091_000097_000251_000757_002783_005447_003617_026801_032501_055245,
  1_031729_000001_000003_000007_000001_000005_000001_000103_000129_000127_000593_000857_003957_003665_010279_026211_002095_015869,
  1_031736_000001_000001_000007_000001_000025_000049_000003_000139_000025_000545_000615_001353_004103_001099_021729_045383_110611,
  1_031742_000001_000003_000005_000003_000007_000049_000083_000041_000209_000357_000939_000849_005851_003945_000831_008131_105897,
  1_031749_000001_000001_000001_000003_000027_000019_000123_000071_000195_001019_001021_001287_005665_005277_008647_027033_089539,
  1_031773_000001_000001_000001_000009_000027_000051_000049_000159_000401_001013_000763_000653_001449_012441_021191_028871_106181,
  1_031777_000001_000001_000005_000007_000031_000007_000105_000137_000331_000367_001305_002761_000863_003915_012633_032251_082867,
  1_031778_000001_000003_000007_000011_000009_000047_000035_000057_000137_000269_000443_000079_000011_011817_028995_046681_104263,
  1_031784_000001_000003_000001_000005_000003_000025_000089_000179_000183_000835_000367_002215_000295_005365_001899_010785_088979,
  1_031801_000001_000003_000007_000013_000003_000005_000093_000043_000409_000363_000267_002077_003745_000445_025957_034103_029475,
  1_031812_000001_000001_000001_000007_000027_000021_000121_000029_000171_000783_000553_000265_006835_003929_018127_033463_070999,
  1_031821_000001_000003_000003_000015_000015_000055_000013_000001_000297_000935_001307_001779_002239_015471_032453_030649_045973,
  1_031822_000001_000003_000007_000005_000025_000041_000003_000171_000347_000607_001873_001087_002433_008377_007959_019941_117319,
  1_031836_000001_000001_000001_000003_000005_000047_000107_000069_000431_000063_000325_001241_003487_011249_028559_030001_093789,
  1_031850_000001_000001_000001_000005_000015_000017_000009_000145_000335_000169_001099_003637_005397_006711_016095_027053_124247,
  1_031855_000001_000003_000003_000005_000003_000009_000065_000097_000421_000951_002003_002837_007095_015685_005147_056801_098679,
  1_031858_000001_000003_000007_000015_000001_000033_000115_000045_000215_000253_000361_000555_000787_015483_025531_053273_008933,
  1_031860_000001_000003_000001_000009_000003_000063_000047_000205_000457_000977_000991_003189_001369_014899_010937_056999_011525,
  1_031886_000001_000001_000007_000005_000011_000061_000053_000055_000231_000357_001695_002489_002355_007583_014097_050039_096595,
  1_031891_000001_000003_000007_000007_000003_000057_000115_000245_000259_000573_001275_002971_001793_013683_008683_051815_026807,
  1_031909_000001_000001_000005_000003_000017_000059_000055_000237_000491_000757_001447_002941_002641_014175_004401_004367_036853,
  1_031928_000001_000003_000001_000015_000003_000063_000067_000001_000403_000079_001161_002379_003337_014447_005877_040759_012573,
  1_031931_000001_000001_000007_000015_000017_000001_000091_000005_000173_000215_001567_001851_003309_009813_021215_019151_096785,
  1_031934_000001_000001_000001_000009_000031_000045_000123_000221_000397_000051_001489_003247_000923_010423_010461_051231_092909,
  1_031941_000001_000001_000001_000013_000027_000017_000105_000163_000403_000193_001487_002421_004415_014303_006419_024105_029997,
  1_031942_000001_000001_000005_000013_000031_000055_000017_000125_000341_000219_000401_001611_000891_012909_013949_046245_026769,
  1_031945_000001_000003_000007_000003_000031_000041_000065_000207_000311_000643_001617_000271_003749_014635_026385_055251_050719,
  1_031951_000001_000003_000003_000013_000007_000055_000069_000241_000413_000399_000137_002255_005395_012625_026583_064603_022571,
  1_031959_000001_000003_000005_000003_000031_000015_000015_000161_000153_000445_000595_000273_006631_012845_023331_016963_052099,
  1_031963_000001_000003_000003_000001_000027_000039_000071_000041_000455_000841_000831_001719_003531_005113_029183_001933_042227,
  1_031970_000001_000003_000007_000003_000001_000015_000031_000183_000429_000557_001747_001059_002079_016361_029103_043207_000921,
  1_031984_000001_000003_000001_000001_000031_000039_000097_000073_000339_000405_001423_002215_005435_009205_001889_058249_061517,
  1_031987_000001_000003_000007_000001_000023_000059_000127_000245_000011_000627_001555_002497_006427_007205_022675_062847_069691,
  1_031990_000001_000001_000003_000005_000001_000013_000095_000009_000167_000481_000947_003181_008057_005559_007537_033757_072419,
  1_032001_000001_000001_000007_000003_000015_000009_000105_000205_000287_000375_000115_001731_001063_011551_012077_041013_088853,
  1_032007_000001_000003_000003_000009_000005_000063_000127_000033_000409_000279_001379_004069_004091_014703_027435_019525_071261,
  1_032008_000001_000003_000001_000013_000031_000031_000059_000205_000167_000131_000891_001259_006909_000211_031517_008085_112065,
  1_032025_000001_000001_000005_000011_000017_000025_000119_000077_000449_000569_000381_000825_002459_000983_002959_051611_090721,
  1_032035_000001_000003_000001_000007_000017_000055_000091_000231_000133_000541_000499_003609_004237_011627_030007_058911_043443,
  1_032038_000001_000003_000007_000007_000029_000005_000047_000187_000071_000695_001389_002855_005815_011605_003643_024961_025793,
  1_032047_000001_000003_000003_000005_000011_000031_000043_000031_000185_001021_000795_003585_003981_008627_018117_042351_019513,
  1_032049_000001_000001_000005_000013_000009_000003_000115_000045_000039_000577_001847_000653_002625_009367_027923_035661_113613,
  1_032062_000001_000003_000007_000007_000017_000009_000069_000233_000367_000673_000011_002215_001177_004501_009693_062013_045647,
  1_032067_000001_000003_000005_000007_000007_000053_000011_000227_000465_000843_002017_000689_006767_010321_025163_056561_006865,
  1_032070_000001_000003_000003_000005_000013_000043_000119_000009_000185_000893_000133_000863_007137_006653_007875_023167_013893,
  1_032073_000001_000003_000005_000009_000001_000047_000017_000085_000273_000901_000493_002411_000983_015717_025151_021323_057939,
  1_032074_000001_000001_000007_000005_000019_000017_000049_000037_000425_000443_000781_002593_004929_012313_012727_042285_088451,
  1_032079_000001_000003_000003_000011_000009_000053_000017_000067_000237_000463_001509_002153_003715_007909_021151_064517_087695,
  1_032081_000001_000003_000007_000001_000029_000039_000025_000083_000413_001005_002011_003933_002911_007041_010537_023135_022671,
  1_032082_000001_000001_000003_000009_000023_000061_000117_000033_000431_000181_001819_000683_001809_001723_027041_029113_099347,
  1_032107_000001_000001_000005_000011_000011_000007_000101_000181_000051_000857_000923_003495_007123_007775_030081_048513_116137,
  1_032127_000001_000001_000003_000011_000015_000031_000097_000127_000365_000799_000715_002101_006081_011607_001055_035027_062967,
  1_032145_000001_000003_000005_000007_000003_000031_000109_000247_000225_000221_001093_002633_001847_007427_008767_016581_032145,
  1_032151_000001_000003_000001_000007_000015_000023_000043_000109_000327_000417_001895_002333_006265_006599_006623_047375_092731,
  1_032152_000001_000003_000007_000001_000029_000029_000045_000217_000163_000941_001327_003685_005481_015783_026281_060339_034277,
  1_032173_000001_000001_000007_000011_000001_000007_000119_000201_000029_000193_001805_001395_000267_002011_000637_026765_048883,
  1_032174_000001_000001_000003_000007_000011_000063_000041_000089_000365_000729_000025_003185_002143_001737_029693_007443_078079,
  1_032186_000001_000003_000001_000013_000025_000027_000063_000233_000079_001007_001357_000679_007581_008333_002469_031787_128531,
  1_032194_000001_000003_000001_000003_000023_000039_000053_000099_000219_000475_000931_000507_003615_010613_014663_001151_123459,
  1_032196_000001_000001_000001_000001_000013_000015_000067_000045_000393_000791_000415_002731_001151_008935_028983_007239_106247,
  1_032200_000001_000003_000007_000007_000011_000035_000095_000153_000421_000193_001997_002587_003183_009229_017663_028221_006759,
  1_032208_000001_000003_000001_000007_000005_000005_000123_000055_000509_000973_000261_000463_002723_015225_001925_062283_086329,
  1_032218_000001_000001_000003_000013_000005_000047_000123_000239_000273_000407_001725_000717_001229_001387_011743_013739_104503]

def dirRows17_1_12 : List Nat := [
  1_032236_000001_000003_000003_000013_000023_000035_000043_000113_000299_000847_001903_003445_003395_000641_011271_061517_040747,
  1_032260_000001_000003_000001_000015_000017_000049_000097_000009_000335_000731_000151_000167_008129_011845_018285_020113_122397,
  1_032263_000001_000001_000005_000011_000011_000063_000003_000153_000345_000511_001939_001815_007231_010555_014293_050753_014681,
  1_032288_000001_000003_000007_000005_000021_000031_000127_000223_000241_000783_000887_003519_004743_003541_004143_057461_027791,
  1_032298_000001_000001_000005_000007_000013_000015_000083_000225_000201_000979_000145_000769_001491_012155_021307_064877_113277,
  1_032315_000001_000001_000007_000001_000027_000025_000105_000069_000239_000323_001059_000573_004913_014215_027007_042351_066315,
  1_032332_000001_000001_000003_000011_000021_000033_000093_000023_000363_000633_000935_000637_006171_012695_014077_017505_069681,
  1_032340_000001_000003_000001_000005_000015_000011_000093_000211_000175_000377_000033_001403_005097_001503_008483_002881_085877,
  1_032354_000001_000001_000005_000003_000005_000051_000005_000255_000429_000661_000625_003015_004813_003573_022917_045967_070559,
  1_032359_000001_000001_000007_000003_000011_000041_000003_000197_000181_000897_000767_001385_007395_015543_004655_040309_073169,
  1_032366_000001_000001_000005_000009_000015_000035_000071_000119_000509_000817_001169_000075_001337_002959_000611_038243_046987,
  1_032368_000001_000001_000001_000009_000001_000007_000043_000065_000479_000625_001685_001309_005619_014163_013633_018169_008311,
  1_032377_000001_000003_000005_000009_000019_000039_000095_000105_000273_001023_000079_000229_006895_002931_005717_027911_022139,
  1_032384_000001_000003_000005_000007_000001_000055_000015_000015_000297_000731_002029_002789_000011_001333_026571_062595_015131,
  1_032399_000001_000001_000005_000007_000029_000035_000003_000125_000381_000709_002047_002395_006315_002301_007175_019857_075085,
  1_032417_000001_000001_000005_000015_000023_000045_000095_000117_000049_000635_001525_001105_007335_004653_018159_029729_062627,
  1_032424_000001_000003_000003_000011_000029_000019_000029_000169_000141_000243_001765_001829_004555_016299_003053_058933_044605,
  1_032427_000001_000001_000003_000015_000005_000045_000035_000213_000385_000993_001521_000009_003561_010497_012601_038163_086501,
  1_032429_000001_000003_000003_000013_000009_000023_000109_000095_000491_001003_000473_003325_006577_014617_017765_033391_082927,
  1_032438_000001_000003_000003_000011_000025_000031_000093_000111_000231_000071_001233_003581_006789_004569_016741_061967_032249,
  1_032442_000001_000003_000003_000015_000015_000063_000039_000247_000079_000923_000327_002639_002013_012325_018133_060623_002215,
  1_032447_000001_000003_000005_000001_000005_000049_000121_000053_000283_000529_000037_003233_006285_012447_004355_009343_045631,
  1_032469_000001_000001_000007_000011_000011_000011_000111_000139_000429_000279_001019_002139_002033_006809_008847_022535_107005,
  1_032479_000001_000003_000005_000001_000001_000021_000035_000097_000167_000057_000491_000511_004065_011699_016851_006847_040929,
  1_032483_000001_000003_000001_000015_000003_000055_000113_000033_000255_000537_000835_001867_003927_000839_000955_029079_093727,
  1_032498_000001_000001_000007_000003_000005_000007_000035_000111_000165_000885_000115_003051_004541_001701_022827_000361_091843,
  1_032503_000001_000001_000007_000011_000007_000055_000081_000043_000237_000725_001761_001599_000639_014189_031241_052827_107943,
  1_032507_000001_000003_000001_000003_000029_000035_000067_000119_000369_000877_001861_000123_008121_013861_031155_060245_079799,
  1_032521_000001_000001_000003_000013_000007_000049_000063_000019_000253_000723_000639_001677_000291_013697_022231_046893_090069,
  1_032532_000001_000003_000005_000001_000007_000057_000029_000233_000035_000715_000515_003221_002715_013839_018321_004445_103843,
  1_032539_000001_000003_000001_000007_000001_000063_000033_000007_000481_000461_001923_002679_002441_005449_013233_002245_048667,
  1_032551_000001_000001_000007_000011_000011_000009_000095_000151_000441_000333_001871_001181_003027_012887_011923_063847_006953,
  1_032572_000001_000003_000005_000005_000015_000033_000053_000047_000351_000387_000055_000393_005475_003027_018565_037997_120877,
  1_032577_000001_000003_000005_000009_000023_000043_000067_000097_000445_000783_001499_001977_001441_010159_013479_000149_004939,
  1_032578_000001_000003_000007_000003_000015_000041_000119_000055_000139_000025_000849_000857_000053_010421_002683_024839_107797,
  1_032587_000001_000001_000007_000013_000025_000051_000051_000013_000333_000093_000095_001755_003055_012585_003519_044857_011257,
  1_032592_000001_000001_000005_000011_000029_000055_000013_000235_000419_000327_000823_002675_008031_009303_008749_020215_012111,
  1_032602_000001_000001_000003_000005_000007_000031_000103_000019_000467_000255_000583_000419_002845_012179_000063_051693_009755,
  1_032604_000001_000001_000001_000013_000015_000029_000109_000081_000381_000659_000601_003867_007663_007307_016445_056327_048559,
  1_032613_000001_000003_000003_000015_000031_000035_000029_000153_000423_000247_000055_003259_006199_004199_013931_014433_052645,
  1_032625_000001_000001_000005_000011_000009_000017_000017_000191_000231_000977_000721_002817_002485_004965_032341_055131_004547,
  1_032631_000001_000001_000007_000007_000007_000007_000089_000069_000299_000503_000597_000311_001321_002335_030193_045347_126631,
  1_032641_000001_000001_000007_000011_000013_000043_000105_000153_000089_000229_001573_001549_003699_015981_028911_045011_083759,
  1_032642_000001_000003_000007_000003_000001_000003_000121_000137_000263_000325_001449_003793_005795_007715_007449_026453_085081,
  1_032644_000001_000003_000001_000007_000023_000015_000039_000217_000099_000873_001641_001411_004627_000283_020707_041795_062239,
  1_032656_000001_000003_000005_000009_000015_000015_000035_000255_000501_000945_000079_000799_002361_004495_027825_027699_129335,
  1_032678_000001_000003_000001_000007_000009_000019_000089_000031_000065_000905_001475_001353_007253_012825_020723_047757_012007,
  1_032681_000001_000001_000003_000003_000015_000035_000083_000239_000463_000835_001249_002521_003429_014073_013569_006161_071309,
  1_032701_000001_000001_000007_000011_000031_000043_000015_000057_000461_000917_000339_003787_002925_001879_007217_017091_108819,
  1_032713_000001_000003_000007_000003_000017_000051_000029_000105_000221_000941_001291_000835_001563_015623_002953_062985_063037,
  1_032721_000001_000001_000007_000003_000001_000039_000083_000041_000399_000465_000587_002011_000137_006017_005067_052389_071053,
  1_032727_000001_000001_000007_000011_000017_000055_000103_000239_000173_000181_001219_002671_005183_003799_019589_031247_068889,
  1_032731_000001_000001_000003_000003_000021_000043_000123_000253_000281_000627_000353_003077_001685_012143_019723_057775_070761,
  1_032734_000001_000001_000007_000015_000031_000013_000101_000159_000311_000305_001783_003523_000149_009269_007103_040315_030569,
  1_032740_000001_000001_000005_000003_000029_000047_000011_000219_000301_000207_001361_000563_007831_014469_018983_054535_064647,
  1_032773_000001_000001_000003_000015_000011_000037_000085_000237_000225_001009_001065_000985_006849_005395_022853_043965_051363,
  1_032774_000001_000003_000003_000001_000011_000061_000045_000131_000201_000609_000757_002539_003817_009309_024759_026789_041437,
  1_032785_000001_000001_000007_000003_000021_000005_000019_000137_000075_000573_000583_002499_000041_003429_024273_036711_110015,
  1_032788_000001_000003_000007_000009_000001_000051_000039_000075_000115_000269_001983_002709_006989_006521_005551_043675_001019,
  1_032792_000001_000001_000003_000009_000027_000001_000125_000007_000067_000821_000275_001253_004635_003557_004155_013831_001523,
  1_032797_000001_000001_000005_000015_000023_000015_000079_000043_000275_000791_001867_002495_002933_002167_022819_052913_088871,
  1_032801_000001_000001_000001_000005_000031_000059_000027_000153_000159_000919_000219_003373_003227_006321_027559_033905_126145,
  1_032811_000001_000003_000003_000013_000023_000021_000119_000175_000119_000741_001745_003985_003847_005163_013699_032373_075201,
  1_032821_000001_000003_000007_000015_000001_000047_000101_000089_000425_000269_000713_003587_003373_013315_016481_040031_050353,
  1_032828_000001_000003_000007_000003_000019_000029_000005_000069_000385_000979_001893_001849_008007_014415_018343_060555_109117,
  1_032839_000001_000001_000003_000013_000005_000035_000111_000239_000489_000395_001565_001607_000543_000089_008971_022311_000899,
  1_032854_000001_000001_000007_000007_000011_000051_000105_000211_000341_000085_000991_001275_003995_012611_002363_029501_044217,
  1_032867_000001_000001_000005_000013_000009_000017_000093_000069_000145_000917_000469_001109_007405_012903_008341_050383_020133,
  1_032870_000001_000003_000001_000007_000027_000045_000045_000085_000101_000161_001117_002757_007847_000359_017155_027073_123535,
  1_032873_000001_000003_000001_000003_000009_000011_000067_000205_000109_000257_001635_000141_003969_011571_000211_048683_108671,
  1_032881_000001_000001_000003_000007_000013_000009_000029_000251_000113_000851_001549_000981_005553_006095_028885_032953_112563,
  1_032891_000001_000001_000005_000007_000011_000005_000013_000083_000343_000499_000587_003887_003859_011459_007361_025665_086151,
  1_032900_000001_000001_000005_000001_000013_000043_000003_000037_000273_000749_001707_002069_003083_001095_003081_023919_021939,
  1_032903_000001_000003_000005_000013_000013_000049_000115_000099_000357_000095_000699_002615_001911_012675_008607_012535_118651,
  1_032910_000001_000001_000007_000007_000029_000043_000017_000131_000271_000895_001427_003659_001843_008247_001175_048239_054435,
  1_032917_000001_000001_000001_000009_000001_000027_000085_000163_000353_000669_000745_000317_002505_007685_014831_031131_106687,
  1_032922_000001_000001_000007_000009_000001_000023_000121_000053_000289_000651_000303_003049_006819_006733_017485_020023_110009,
  1_032928_000001_000003_000007_000003_000005_000047_000093_000075_000363_000479_000825_001801_006807_003341_006419_009889_005557,
  1_032945_000001_000001_000003_000015_000023_000005_000007_000025_000073_000811_001597_002041_006707_006817_020427_050749_046255,
  1_032946_000001_000003_000007_000009_000001_000011_000061_000063_000435_000977_001937_000093_002685_000643_020113_025873_063829,
  1_032951_000001_000001_000003_000015_000005_000041_000031_000053_000143_000271_000027_003899_005045_001063_017229_052715_067689,
  1_032958_000001_000001_000003_000011_000001_000057_000121_000013_000291_000861_001547_003899_007949_015401_029807_052307_104359,
  1_032965_000001_000003_000005_000015_000023_000003_000095_000043_000377_000437_001687_003075_005131_011791_003637_012621_105575,
  1_032978_000001_000003_000001_000003_000027_000001_000117_000011_000153_000401_001971_002097_003227_014603_004757_056281_112263,
  1_032980_000001_000003_000003_000005_000013_000025_000051_000209_000367_000327_001941_001943_001347_014393_031997_016001_129047,
  1_032983_000001_000001_000005_000011_000019_000051_000109_000229_000071_000923_001741_001193_004657_006043_026703_017757_075009,
  1_032987_000001_000001_000007_000003_000023_000003_000125_000165_000137_000999_001583_003493_000859_015603_007143_028791_028201,
  1_033023_000001_000001_000005_000011_000029_000057_000065_000041_000295_000729_000635_001871_006347_003509_000059_040765_042673,
  1_033031_000001_000003_000003_000003_000015_000059_000053_000097_000015_000131_000891_001105_000841_006065_014427_004721_106433,
  1_033032_000001_000001_000001_000007_000019_000037_000101_000121_000141_000613_001363_000691_001731_012477_008339_055669_099379,
  1_033035_000001_000003_000005_000013_000017_000049_000075_000025_000447_000113_001853_003465_005225_004531_014287_001039_017399,
  1_033038_000001_000003_000005_000003_000003_000049_000101_000079_000117_000939_001161_001991_002343_007183_012599_052877_094337,
  1_033040_000001_000003_000001_000001_000019_000047_000073_000195_000475_000435_001807_002723_007885_015469_026057_037325_057005,
  1_033043_000001_000001_000001_000011_000017_000007_000111_000143_000357_000977_000719_000553_004559_007225_010405_026895_008385,
  1_033050_000001_000003_000003_000009_000017_000005_000001_000073_000125_000913_001275_002387_005153_013611_020585_008465_027545,
  1_033059_000001_000001_000007_000005_000027_000051_000107_000147_000503_000699_000851_001729_002875_016331_028025_026451_092705,
  1_033080_000001_000001_000005_000009_000003_000037_000021_000139_000013_000427_000225_001345_002491_015495_025847_003095_128879,
  1_033098_000001_000001_000003_000011_000007_000047_000113_000133_000099_000871_001151_001953_007931_006389_028715_036861_060017,
  1_033108_000001_000001_000007_000001_000021_000047_000035_000083_000137_000945_002047_003491_003719_003001_020563_051243_014491,
  1_033115_000001_000001_000005_000015_000001_000013_000085_000061_000479_000853_000813_000805_004931_012651_022757_029531_092861]

def dirRows17_1_13 : List Nat := [
  1_033117_000001_000003_000007_000007_000027_000063_000031_000169_000043_000185_000637_000729_007231_002381_023539_053885_090215,
  1_033133_000001_000001_000003_000013_000005_000051_000069_000111_000357_000277_001889_003809_008031_013341_014261_034001_063317,
  1_033134_000001_000001_000007_000003_000011_000059_000001_000043_000227_000503_001407_003917_007077_000847_004513_053007_066721,
  1_033157_000001_000001_000005_000011_000015_000025_000109_000169_000025_000391_000597_002997_002377_009045_015239_025291_005451,
  1_033169_000001_000003_000003_000011_000015_000011_000001_000059_000347_000707_000239_002473_008057_004787_032247_017955_079151,
  1_033170_000001_000003_000007_000011_000009_000059_000009_000117_000137_000713_000451_001105_004485_014979_026271_046017_089211,
  1_033176_000001_000003_000003_000003_000003_000019_000095_000131_000413_000291_001179_003265_007107_010419_013527_019905_008059,
  1_033182_000001_000003_000007_000009_000029_000043_000019_000243_000443_000027_001401_003469_006925_002833_019715_039667_011983,
  1_033192_000001_000003_000003_000007_000023_000033_000115_000059_000029_000061_001085_001115_004007_012673_026479_022397_095609,
  1_033205_000001_000003_000003_000005_000001_000047_000043_000083_000021_000621_000059_000001_000891_012285_031855_048641_052479,
  1_033212_000001_000003_000003_000005_000003_000009_000017_000181_000015_000315_001705_002461_001853_014007_017665_040593_126179,
  1_033215_000001_000003_000005_000003_000003_000023_000083_000163_000029_000293_001891_002631_002989_007295_002441_021689_008187,
  1_033217_000001_000003_000001_000001_000001_000023_000053_000215_000185_000843_001083_002603_003857_004981_025079_020249_093717,
  1_033227_000001_000003_000005_000011_000007_000061_000127_000013_000449_000395_001909_003967_002441_003073_008159_033979_026345,
  1_033229_000001_000001_000005_000001_000015_000005_000093_000087_000319_000173_001729_001395_001019_005139_010819_029877_081025,
  1_033238_000001_000003_000003_000007_000017_000055_000061_000227_000299_000245_000849_000211_000895_002999_018215_037069_032821,
  1_033241_000001_000001_000005_000003_000017_000049_000115_000055_000447_000533_001463_002983_003245_009345_011955_049145_128035,
  1_033260_000001_000003_000001_000007_000005_000017_000061_000071_000101_000529_001761_000827_007887_005713_031039_018087_082277,
  1_033271_000001_000003_000001_000011_000027_000059_000001_000231_000303_000431_001279_003647_001333_003675_029401_055533_065997,
  1_033278_000001_000001_000005_000009_000007_000009_000111_000245_000269_000919_001147_001601_006219_004931_003035_012231_004011,
  1_033293_000001_000003_000005_000015_000003_000019_000083_000025_000129_000979_000079_003027_003983_007703_016859_012085_083115,
  1_033294_000001_000001_000005_000011_000031_000041_000099_000003_000383_000943_001579_002435_001209_000161_031733_011755_095697,
  1_033296_000001_000001_000001_000009_000009_000055_000115_000187_000499_000165_001081_000813_002545_008065_010501_015475_085107,
  1_033302_000001_000001_000001_000003_000001_000031_000081_000213_000301_000575_000605_000543_003347_012759_021645_037173_036127,
  1_033305_000001_000003_000003_000009_000021_000029_000051_000091_000307_000617_001839_000443_001013_004473_003885_057669_123271,
  1_033329_000001_000003_000001_000015_000031_000043_000083_000187_000051_000513_001505_003895_003557_009527_027537_006173_099595,
  1_033330_000001_000003_000003_000001_000003_000053_000113_000027_000431_000505_000219_002143_006691_003219_009589_009885_024037,
  1_033332_000001_000001_000005_000009_000013_000003_000053_000145_000049_000411_000691_000289_006443_004963_013815_023663_095497,
  1_033354_000001_000003_000005_000009_000019_000007_000053_000101_000199_000069_001821_003233_003267_005947_004869_030095_021255,
  1_033383_000001_000001_000005_000011_000029_000007_000079_000011_000451_000585_000987_002333_001891_001853_014739_034399_062895,
  1_033387_000001_000003_000001_000007_000029_000043_000103_000219_000139_000359_001663_003453_007469_001943_011457_019227_062211,
  1_033397_000001_000003_000003_000011_000009_000047_000017_000237_000087_000881_000583_003473_002579_000975_001531_050997_076219,
  1_033408_000001_000001_000007_000015_000031_000037_000079_000115_000095_000515_002003_002595_004077_004537_009171_031183_041219,
  1_033417_000001_000001_000001_000009_000021_000041_000093_000033_000211_000341_000233_002217_006657_012913_008329_003881_042563,
  1_033420_000001_000003_000003_000011_000025_000003_000023_000197_000049_000339_000877_001117_007817_014143_001575_050301_092367,
  1_033423_000001_000003_000005_000005_000019_000045_000069_000179_000447_000861_001633_001941_005821_001843_004085_023501_109047,
  1_033431_000001_000003_000001_000003_000031_000029_000049_000183_000311_000133_000345_001541_000111_005571_001943_011039_127673,
  1_033438_000001_000003_000001_000005_000003_000013_000063_000005_000059_000789_000071_003271_003871_009105_022525_000031_117803,
  1_033442_000001_000003_000001_000013_000031_000043_000097_000133_000313_000729_000287_002971_005623_013183_015179_047271_028853,
  1_033444_000001_000001_000003_000013_000027_000015_000035_000037_000507_000139_001933_002847_000361_010261_021031_003889_056875,
  1_033448_000001_000003_000001_000015_000031_000013_000045_000073_000279_000331_000471_003881_003295_012035_028329_000899_047397,
  1_033456_000001_000001_000003_000013_000001_000007_000081_000255_000315_000595_000043_003919_005229_007953_025711_019509_107181,
  1_033459_000001_000001_000003_000015_000007_000033_000117_000169_000071_000577_000629_003665_007761_013529_026375_017181_022125,
  1_033466_000001_000003_000005_000007_000005_000007_000001_000093_000489_000289_000329_002273_000685_014835_011433_026041_112735,
  1_033473_000001_000003_000003_000003_000009_000039_000045_000023_000171_000035_000571_000551_007815_006169_024283_061477_071877,
  1_033476_000001_000001_000005_000007_000023_000015_000081_000215_000297_000269_000655_002059_003643_012741_011955_041085_046047,
  1_033491_000001_000001_000007_000005_000003_000035_000125_000141_000419_000137_001031_002053_007925_007267_006267_034323_077495,
  1_033494_000001_000001_000007_000011_000003_000057_000091_000043_000139_000691_001569_001825_007855_001093_019263_031601_016019,
  1_033507_000001_000003_000001_000005_000021_000007_000011_000225_000105_000757_001493_000455_004757_012007_005139_003545_079717,
  1_033514_000001_000003_000001_000013_000017_000029_000125_000249_000475_000079_001271_000341_000863_000853_002105_032897_121261,
  1_033521_000001_000003_000001_000011_000017_000059_000003_000029_000061_000399_001465_004029_002103_012481_028495_034363_063781,
  1_033528_000001_000003_000003_000015_000029_000013_000101_000191_000435_000215_001355_002263_006059_004545_007535_015041_084091,
  1_033534_000001_000001_000003_000009_000029_000023_000099_000055_000091_000145_000235_002847_000725_000209_024565_016545_103669,
  1_033536_000001_000001_000001_000001_000031_000015_000093_000197_000207_000357_000667_003511_003865_005329_006491_009027_125979,
  1_033551_000001_000003_000003_000013_000017_000035_000099_000187_000153_000589_001633_004053_001023_009541_009841_039585_024885,
  1_033554_000001_000003_000007_000011_000023_000005_000071_000089_000455_000665_001221_001821_000591_011459_000503_056777_065691,
  1_033563_000001_000003_000001_000001_000009_000033_000051_000203_000223_000709_001263_003535_007753_008279_008673_060259_002671,
  1_033575_000001_000001_000007_000009_000017_000063_000005_000229_000495_000435_001711_003359_000399_015901_028519_056627_008079,
  1_033579_000001_000003_000005_000011_000009_000025_000049_000143_000275_000989_000461_000447_001917_009253_028421_001803_119725,
  1_033582_000001_000003_000003_000007_000025_000003_000039_000171_000303_000905_001353_002561_007347_007339_015271_061945_026343,
  1_033601_000001_000001_000001_000003_000005_000063_000009_000229_000107_000815_001705_003621_002345_003065_016315_017017_033667,
  1_033602_000001_000003_000005_000013_000029_000013_000091_000111_000475_000561_000443_003825_005331_011211_027639_028305_101831,
  1_033614_000001_000003_000001_000009_000015_000033_000017_000047_000249_000089_000429_003819_001959_014317_010737_028151_040395,
  1_033625_000001_000003_000007_000013_000019_000029_000083_000081_000511_000783_000823_002865_005823_009459_027413_063297_044181,
  1_033628_000001_000003_000001_000001_000019_000053_000045_000227_000193_000631_000289_001227_006241_006915_016051_031237_050201,
  1_033637_000001_000003_000007_000007_000015_000049_000077_000147_000421_000515_000927_001561_004391_012943_006807_036889_070249,
  1_033656_000001_000003_000007_000007_000017_000015_000063_000123_000101_000283_000059_000977_005185_016161_005007_036255_011537,
  1_033665_000001_000001_000007_000001_000013_000017_000079_000035_000193_000947_000767_001365_002145_013267_030561_051949_037591,
  1_033683_000001_000001_000001_000013_000011_000013_000091_000129_000355_000549_000295_000673_000209_015953_014703_030857_047967,
  1_033695_000001_000003_000005_000009_000017_000017_000083_000161_000189_000585_000021_001019_004879_015943_017281_046013_094839,
  1_033696_000001_000003_000005_000009_000023_000039_000065_000025_000181_000003_002005_000635_000201_009391_008755_038535_088697,
  1_033702_000001_000003_000001_000015_000013_000035_000047_000125_000429_000901_000895_003495_000327_000397_007847_062157_003489,
  1_033708_000001_000003_000005_000003_000019_000021_000081_000039_000085_000169_001981_003323_000113_002057_016617_058051_055059,
  1_033711_000001_000003_000001_000013_000009_000001_000101_000081_000129_000717_001495_004077_005555_000093_012957_014805_110219,
  1_033716_000001_000003_000005_000005_000005_000047_000107_000111_000387_000987_002009_000179_001111_003443_025579_012293_123035,
  1_033728_000001_000001_000007_000013_000021_000025_000033_000211_000009_000783_001785_002691_006835_002867_022469_017853_090685,
  1_033737_000001_000001_000003_000003_000019_000057_000059_000203_000197_000347_000553_001361_007593_000091_015303_030045_086605,
  1_033761_000001_000003_000005_000007_000029_000023_000001_000235_000159_000277_001227_001727_001853_009717_002377_013597_018119,
  1_033774_000001_000001_000001_000011_000015_000029_000005_000015_000349_000685_000197_003127_001075_008847_027873_000539_057149,
  1_033782_000001_000001_000007_000009_000023_000025_000121_000239_000219_000747_001981_002683_005319_000075_022569_029697_027627,
  1_033788_000001_000003_000007_000005_000031_000043_000095_000131_000423_000547_001437_000127_001953_000861_000839_054503_020465,
  1_033791_000001_000001_000005_000003_000029_000029_000071_000237_000275_000493_000513_004067_000393_009415_020511_029257_086267,
  1_033793_000001_000001_000001_000001_000025_000011_000059_000185_000211_000175_000037_002999_004919_010225_016727_060447_059985,
  1_033811_000001_000001_000003_000003_000001_000009_000069_000195_000197_000677_000229_000599_005613_004537_005495_058801_014297,
  1_033813_000001_000003_000001_000015_000017_000023_000005_000101_000331_000943_001433_002199_000313_000469_003651_003281_100119,
  1_033818_000001_000001_000005_000015_000013_000025_000087_000045_000229_000821_000059_000761_006259_015159_003197_039763_087301,
  1_033829_000001_000003_000005_000007_000019_000021_000089_000015_000019_000623_000603_004069_003531_013353_021267_006355_053821,
  1_033842_000001_000001_000005_000009_000013_000013_000111_000077_000439_000599_001577_000959_004567_003117_007127_049265_035667,
  1_033854_000001_000003_000007_000009_000027_000061_000001_000019_000043_000475_000221_000655_004351_015827_030489_022245_041077,
  1_033856_000001_000001_000003_000013_000017_000017_000111_000085_000253_000011_000367_002349_004103_012517_027037_042481_084451,
  1_033868_000001_000003_000005_000007_000007_000025_000053_000027_000429_000503_000893_002923_002539_015849_030157_012111_108893,
  1_033879_000001_000001_000007_000009_000013_000029_000051_000113_000273_000745_000759_000263_003031_000705_023203_064245_127183,
  1_033885_000001_000001_000001_000009_000029_000005_000025_000165_000261_000319_000645_002199_003135_010263_010711_018713_063337,
  1_033886_000001_000001_000005_000001_000023_000041_000043_000071_000365_000683_001107_001671_007079_008933_012815_008095_097955,
  1_033892_000001_000003_000001_000015_000009_000043_000105_000217_000131_000299_001459_001087_003493_015297_011741_043383_035021,
  1_033907_000001_000003_000001_000003_000003_000057_000069_000007_000073_000977_001163_003591_000243_013129_023247_020609_022489,
  1_033913_000001_000003_000007_000005_000001_000057_000065_000027_000121_000575_000903_003527_005601_005597_001941_060079_088121,
  1_033923_000001_000003_000001_000003_000015_000003_000023_000087_000233_000389_001671_001557_004825_001017_017697_026735_053421,
  1_033925_000001_000003_000005_000003_000005_000043_000061_000249_000273_000251_001383_002415_001061_012363_003071_023785_127909,
  1_033935_000001_000003_000003_000013_000005_000063_000015_000165_000353_000603_001627_002037_000487_011603_000719_054693_052645]

def dirRows17_1_14 : List Nat := [
  1_033937_000001_000003_000005_000011_000031_000041_000041_000083_000481_000251_001903_002655_005237_006073_020201_014069_091649,
  1_033954_000001_000003_000001_000015_000021_000041_000099_000061_000055_000063_001595_001805_007625_012261_023275_043471_005147,
  1_033963_000001_000003_000001_000005_000023_000021_000071_000169_000197_000051_001653_003053_004663_000293_012751_015641_083993,
  1_033966_000001_000003_000005_000015_000029_000045_000055_000199_000275_000103_001093_003569_005997_009445_002291_030973_068589,
  1_033977_000001_000003_000005_000007_000015_000003_000015_000003_000287_000961_001759_001153_007613_009885_008981_005109_112865,
  1_033978_000001_000001_000001_000009_000001_000037_000111_000061_000309_000581_000875_002121_001035_004345_001351_059743_034955,
  1_033991_000001_000003_000007_000007_000011_000023_000051_000235_000023_000697_000991_001995_003615_006665_015885_018555_011711,
  1_033998_000001_000003_000007_000013_000003_000059_000087_000129_000405_000689_001189_002071_000877_012347_018381_028367_027247,
  1_034012_000001_000001_000001_000009_000023_000029_000113_000071_000479_000421_000215_001029_006125_013575_010823_045303_003153,
  1_034016_000001_000001_000003_000011_000013_000005_000031_000029_000279_000597_000791_000319_001391_014487_003811_036913_011513,
  1_034025_000001_000003_000007_000011_000009_000011_000055_000167_000069_000519_001887_000145_006133_001307_014465_017419_018319,
  1_034033_000001_000001_000003_000001_000029_000025_000057_000075_000019_000187_001591_000421_000959_007499_008377_042811_053423,
  1_034036_000001_000003_000001_000003_000007_000009_000073_000217_000383_000755_001561_003923_003891_016129_013195_062097_067493,
  1_034045_000001_000003_000007_000009_000005_000007_000047_000029_000319_000243_000405_002867_005803_002273_004913_054777_088301,
  1_034065_000001_000003_000007_000001_000025_000011_000051_000183_000387_000863_000039_002119_002395_010175_020833_003235_108197,
  1_034078_000001_000001_000007_000013_000025_000043_000021_000067_000103_000709_000603_001045_007079_008867_029039_061499_039533,
  1_034093_000001_000001_000007_000005_000007_000055_000077_000115_000409_000287_001149_001535_007459_005525_027129_043659_086953,
  1_034101_000001_000003_000005_000003_000021_000041_000047_000147_000267_000473_001501_002663_005381_000041_018265_053845_016039,
  1_034108_000001_000001_000007_000015_000027_000063_000095_000103_000169_000001_000133_003103_007539_005765_011453_004133_095133,
  1_034111_000001_000003_000003_000015_000003_000053_000121_000135_000385_000475_000889_002557_004937_011129_018461_016757_030339,
  1_034120_000001_000003_000001_000013_000011_000039_000111_000013_000475_000201_001973_002151_006973_004083_012593_044093_108037,
  1_034123_000001_000003_000007_000009_000031_000031_000097_000235_000179_000689_000403_001995_007697_007511_029333_011005_050723,
  1_034125_000001_000001_000007_000013_000023_000005_000007_000171_000441_000921_001455_003865_007089_005469_010423_053013_080559,
  1_034153_000001_000003_000005_000003_000025_000043_000105_000157_000507_000143_000297_001111_002761_014103_004965_036733_011741,
  1_034171_000001_000003_000007_000009_000029_000061_000049_000239_000271_000697_000211_001633_002991_014933_012347_044291_012219,
  1_034174_000001_000001_000007_000007_000017_000061_000029_000043_000087_000633_000937_001931_003541_012259_023045_005923_048479,
  1_034178_000001_000003_000003_000003_000015_000025_000105_000017_000159_000863_001377_000331_001475_010573_028947_008141_026671,
  1_034183_000001_000001_000007_000007_000031_000059_000081_000023_000467_000241_001257_001337_007731_009071_003417_051191_078369,
  1_034190_000001_000001_000005_000009_000011_000045_000049_000227_000319_000063_001339_000885_004571_011649_005607_010509_055055,
  1_034201_000001_000003_000003_000009_000029_000017_000007_000235_000191_000927_000575_001115_004111_014179_002041_013331_029825,
  1_034211_000001_000001_000005_000009_000027_000061_000071_000201_000341_000577_000221_001371_001135_004347_024211_036171_023435,
  1_034220_000001_000003_000003_000001_000001_000029_000075_000121_000193_000647_001429_000275_005243_000783_028533_013941_068035,
  1_034225_000001_000003_000005_000015_000021_000027_000117_000183_000251_000991_000935_003119_005133_002765_007423_028867_120565,
  1_034237_000001_000003_000005_000005_000013_000023_000029_000101_000299_000699_001249_001225_001335_006079_017825_060467_087787,
  1_034249_000001_000001_000001_000009_000015_000019_000011_000163_000433_000553_001487_000813_003293_001195_000895_028431_062905,
  1_034250_000001_000001_000001_000013_000025_000037_000111_000129_000391_000813_001061_004065_007339_010731_023799_041463_099673,
  1_034264_000001_000001_000007_000015_000003_000021_000045_000077_000471_000155_000967_000711_004947_013983_027827_028653_117839,
  1_034269_000001_000001_000005_000009_000013_000039_000107_000237_000233_000881_000297_002189_008085_001221_018659_000299_090951,
  1_034276_000001_000001_000001_000013_000021_000053_000083_000017_000487_000215_001203_003017_007887_003759_010521_031223_087917,
  1_034279_000001_000001_000007_000001_000013_000031_000123_000219_000127_000743_001325_003907_000129_008901_004855_022509_047331,
  1_034293_000001_000001_000007_000011_000029_000037_000011_000157_000401_000035_002037_002873_007409_007837_001247_033911_003979,
  1_034303_000001_000001_000005_000015_000001_000013_000035_000253_000287_001007_001417_001613_006019_011617_006323_056263_045073,
  1_034310_000001_000003_000001_000015_000001_000059_000041_000239_000373_000443_000897_000275_005783_008619_018559_016279_092063,
  1_034340_000001_000003_000001_000009_000023_000033_000083_000043_000231_000819_001657_001031_005507_012621_008961_023059_063453,
  1_034349_000001_000001_000007_000005_000029_000049_000021_000251_000267_000043_000729_004013_001497_015489_016761_049689_122755,
  1_034352_000001_000003_000007_000001_000031_000021_000011_000149_000127_000711_001249_000049_005503_000677_012313_061301_016279,
  1_034355_000001_000001_000005_000011_000009_000015_000041_000061_000081_000991_001387_003567_000221_015835_008609_028265_098199,
  1_034358_000001_000003_000001_000007_000021_000035_000013_000059_000173_000637_000107_000393_004551_006523_027389_033129_045579,
  1_034362_000001_000001_000001_000009_000029_000051_000065_000199_000417_000553_001321_002513_004749_008477_019721_024301_016301,
  1_034376_000001_000003_000005_000001_000025_000013_000007_000055_000163_000581_001677_002313_006843_015697_003055_053171_059899,
  1_034381_000001_000003_000001_000005_000031_000013_000101_000195_000235_000359_000911_001017_002575_012801_000997_007819_073243,
  1_034387_000001_000001_000007_000001_000009_000039_000059_000083_000057_000885_000317_002689_005741_011833_025563_062581_062239,
  1_034389_000001_000001_000005_000015_000025_000025_000055_000207_000223_000907_000913_000387_005599_015567_008859_013703_066071,
  1_034394_000001_000001_000005_000015_000019_000039_000083_000177_000333_000531_001257_002687_007793_015967_019175_001381_106629,
  1_034410_000001_000003_000005_000013_000029_000029_000077_000001_000273_000483_000725_003825_005115_004043_011571_008693_049761,
  1_034423_000001_000001_000007_000003_000005_000045_000037_000065_000267_000191_000301_002863_000167_009303_014563_041553_119561,
  1_034434_000001_000001_000007_000005_000021_000041_000107_000213_000267_000427_000699_001485_002125_016011_029243_004691_050545,
  1_034436_000001_000003_000003_000009_000015_000029_000081_000053_000289_000689_000933_002667_005175_010409_028221_056375_049109,
  1_034448_000001_000001_000001_000015_000003_000011_000077_000107_000353_000349_000219_001961_007559_010081_025119_046041_103827,
  1_034453_000001_000003_000003_000001_000005_000027_000109_000017_000271_000543_000565_000397_002649_012037_004525_037835_107071,
  1_034454_000001_000001_000005_000015_000003_000037_000123_000157_000389_000619_001379_004093_006107_004419_021011_036189_021269,
  1_034460_000001_000003_000001_000007_000025_000017_000037_000133_000247_000113_000985_000815_000441_007869_025121_049459_000429,
  1_034464_000001_000003_000003_000011_000007_000023_000059_000051_000403_000685_002019_001167_007973_006915_010819_043807_127793,
  1_034479_000001_000001_000003_000001_000029_000003_000125_000107_000305_000101_000391_002733_006883_005867_005139_016025_112439,
  1_034491_000001_000001_000005_000005_000023_000023_000089_000033_000275_000451_001033_000649_003761_004735_026021_009627_102747,
  1_034501_000001_000001_000005_000013_000003_000017_000117_000251_000425_000917_000759_003047_008171_014421_027765_011085_064889,
  1_034508_000001_000003_000001_000009_000007_000023_000107_000143_000123_000413_002045_000655_006283_008783_020263_055463_033271,
  1_034516_000001_000003_000007_000011_000005_000049_000073_000055_000465_000043_000587_003943_000521_012357_016273_026603_023219,
  1_034529_000001_000003_000005_000013_000009_000003_000127_000171_000271_000227_000993_001427_002235_006325_013501_001411_044393,
  1_034530_000001_000001_000001_000003_000013_000027_000019_000037_000175_000423_000005_003403_005427_016345_030297_011909_104647,
  1_034553_000001_000003_000001_000003_000003_000039_000111_000179_000487_000923_001945_001609_004689_011807_013725_003081_048163,
  1_034564_000001_000003_000001_000001_000009_000035_000007_000151_000109_000925_001249_003171_001207_002053_005135_034821_057291,
  1_034568_000001_000001_000005_000013_000031_000035_000101_000199_000499_000725_001229_002857_006437_000503_014437_035721_024971,
  1_034571_000001_000001_000001_000015_000003_000049_000075_000101_000373_000119_000875_000245_000015_012937_004731_013037_001555,
  1_034582_000001_000001_000001_000007_000015_000005_000053_000005_000423_000069_000073_002139_000383_004035_006723_059941_124503,
  1_034586_000001_000001_000003_000013_000001_000023_000029_000047_000145_000785_001013_001579_004579_000107_017571_046311_027777,
  1_034598_000001_000001_000001_000005_000023_000025_000097_000075_000105_000183_000827_003871_002005_006453_028729_042583_062979,
  1_034604_000001_000003_000005_000009_000011_000049_000029_000201_000333_000441_000429_001955_005301_011775_022915_058693_111917,
  1_034610_000001_000003_000003_000001_000015_000037_000117_000223_000319_000181_000061_000177_000507_014871_016419_034261_106937,
  1_034619_000001_000003_000003_000009_000025_000027_000081_000253_000459_000005_000693_001271_000485_016171_000427_017917_004393,
  1_034621_000001_000003_000003_000001_000027_000047_000011_000057_000269_000095_000569_002733_003275_001599_015073_058071_086805,
  1_034633_000001_000003_000007_000013_000021_000057_000075_000063_000053_000487_000251_003193_004279_002311_006613_038319_093557,
  1_034634_000001_000003_000005_000005_000031_000035_000039_000255_000011_000081_000605_001457_006367_014121_008069_046653_079945,
  1_034657_000001_000001_000001_000007_000017_000019_000019_000247_000013_000757_001069_002811_004969_010943_029399_004153_120817,
  1_034682_000001_000001_000001_000015_000031_000013_000001_000247_000157_000785_001565_000897_004825_008375_004933_060671_088403,
  1_034688_000001_000003_000003_000007_000031_000053_000117_000207_000243_000603_000625_001039_005725_005021_020227_028613_123759,
  1_034691_000001_000001_000005_000001_000007_000029_000065_000153_000393_000821_000295_002705_005999_015801_031301_015545_052917,
  1_034694_000001_000001_000001_000001_000011_000051_000097_000143_000027_000279_001005_001235_005539_001523_026293_035015_047835,
  1_034706_000001_000003_000003_000013_000027_000017_000123_000147_000039_000035_000567_000961_005431_005557_017849_046675_102181,
  1_034708_000001_000001_000007_000011_000007_000025_000073_000223_000459_000207_001637_000647_002057_000685_024539_048809_026877,
  1_034724_000001_000003_000001_000003_000021_000043_000121_000011_000431_000383_001703_001451_002349_011845_013801_020589_043125,
  1_034727_000001_000001_000005_000001_000027_000029_000089_000233_000437_000303_000853_003425_000263_002073_014111_039129_059547,
  1_034751_000001_000001_000001_000003_000003_000047_000099_000207_000261_000179_001761_002657_004339_006567_025455_018729_051431,
  1_034753_000001_000003_000003_000013_000005_000005_000109_000125_000123_000233_001713_001539_004375_012187_018355_049597_109959,
  1_034759_000001_000003_000007_000007_000009_000023_000045_000193_000363_000837_000855_001413_007587_009091_027907_017809_063249,
  1_034763_000001_000003_000003_000009_000019_000023_000063_000085_000419_001007_001753_000539_001471_002171_009239_036289_105503,
  1_034777_000001_000003_000001_000011_000023_000005_000105_000079_000473_000879_001623_003155_005157_004699_000697_041919_015441,
  1_034778_000001_000001_000007_000011_000005_000021_000043_000207_000491_000355_000857_002325_000819_015849_024529_005789_110661,
  1_034780_000001_000001_000005_000015_000019_000033_000081_000137_000473_000853_001681_003841_005617_013715_001987_052983_066327,
  1_034796_000001_000003_000005_000007_000011_000031_000069_000085_000033_000197_001771_001957_001311_000169_014159_007327_008577]

def dirRows17_1_15 : List Nat := [
  1_034799_000001_000001_000003_000009_000011_000023_000019_000143_000009_000579_000111_002973_003567_008561_010447_055875_064305,
  1_034801_000001_000001_000005_000007_000001_000017_000093_000011_000423_001007_000839_000719_003965_014531_017301_029577_004083,
  1_034817_000001_000003_000005_000013_000019_000017_000123_000061_000059_000115_001165_000579_002545_000633_005597_021865_109167,
  1_034824_000001_000001_000005_000003_000029_000029_000099_000163_000321_000367_001523_003719_000665_015843_028831_063823_113533,
  1_034827_000001_000001_000001_000003_000015_000007_000085_000001_000181_000759_000537_003315_007159_004363_004183_053775_008801,
  1_034837_000001_000003_000001_000001_000015_000053_000009_000035_000459_000417_001169_002055_001175_010923_000335_024269_093001,
  1_034841_000001_000003_000001_000005_000031_000043_000051_000149_000175_000541_000629_001147_007585_009725_018623_013345_065391,
  1_034853_000001_000003_000007_000001_000013_000039_000013_000217_000507_000765_000721_001491_005037_006267_002871_019181_123751,
  1_034858_000001_000001_000003_000005_000021_000009_000123_000195_000063_000347_000007_000531_003015_009457_029543_051479_026607,
  1_034877_000001_000001_000001_000001_000021_000015_000081_000127_000429_000015_000901_001503_001919_006515_002477_053571_113447,
  1_034886_000001_000003_000001_000013_000009_000033_000079_000169_000499_000767_000441_002085_002429_010213_004125_002611_026137,
  1_034895_000001_000001_000003_000001_000019_000023_000083_000179_000447_000513_000913_001201_001861_011595_029037_007775_116417,
  1_034897_000001_000003_000003_000007_000003_000057_000047_000183_000413_000319_001375_001401_002231_014331_028625_043839_102717,
  1_034898_000001_000001_000005_000011_000031_000027_000111_000085_000191_000155_002025_001501_004991_004655_003451_010219_060391,
  1_034916_000001_000003_000003_000007_000017_000019_000113_000037_000423_000479_000709_003659_006567_001709_013483_061821_077101,
  1_034923_000001_000003_000001_000013_000003_000017_000073_000061_000275_000359_001341_000449_001373_012047_011207_052651_083305,
  1_034928_000001_000001_000007_000009_000009_000045_000015_000121_000015_000051_000509_002189_005057_006119_011669_014559_108323,
  1_034934_000001_000001_000007_000007_000025_000013_000013_000141_000157_000249_000823_000821_001909_005925_003505_013187_019237,
  1_034940_000001_000003_000003_000001_000009_000051_000079_000091_000005_000709_000787_002427_004613_007307_020141_001675_049779,
  1_034944_000001_000001_000001_000011_000011_000013_000033_000081_000413_000981_000907_002709_004113_010607_002587_012845_011103,
  1_034947_000001_000001_000007_000009_000013_000025_000037_000081_000375_001013_002027_000321_003947_002269_010687_007537_067495,
  1_034953_000001_000003_000005_000011_000009_000043_000053_000111_000339_000841_000503_003209_006437_010893_013627_051809_057229,
  1_034956_000001_000003_000001_000001_000021_000015_000071_000093_000453_000405_001099_002979_007471_010173_017875_013179_048615,
  1_034967_000001_000003_000005_000009_000009_000001_000121_000117_000275_000157_000057_003459_004787_015005_024591_023963_045077,
  1_034968_000001_000001_000005_000003_000021_000057_000113_000207_000169_000603_000637_001455_006281_006527_017219_032307_018617,
  1_034971_000001_000003_000007_000005_000025_000015_000099_000091_000253_000267_000537_000713_003929_000895_007999_047989_118731,
  1_034974_000001_000003_000007_000015_000023_000017_000005_000129_000121_000251_000219_002547_007291_001079_014577_056229_035253,
  1_034977_000001_000003_000001_000015_000005_000061_000035_000135_000497_000681_000751_002303_006697_011225_030389_061673_087313,
  1_034980_000001_000003_000001_000007_000007_000037_000009_000085_000257_000805_001325_003597_006065_000727_018203_057077_000437,
  1_034983_000001_000003_000005_000007_000005_000043_000029_000179_000073_000173_001441_001233_001779_007893_010629_027547_007775,
  1_034998_000001_000001_000007_000005_000031_000029_000021_000035_000289_000423_000449_003331_002929_006827_015569_009873_076889,
  1_035004_000001_000001_000007_000013_000013_000037_000055_000099_000135_000797_001263_002539_000893_004225_016689_038259_050857,
  1_035010_000001_000001_000003_000001_000005_000003_000095_000029_000015_000539_000825_003931_004809_008299_029891_061357_097523,
  1_035012_000001_000003_000001_000009_000027_000025_000115_000239_000387_000163_001153_000031_002375_007943_031929_001121_033085,
  1_035030_000001_000003_000005_000009_000003_000053_000121_000159_000165_000081_000317_003051_001991_000493_002029_043305_130209,
  1_035039_000001_000001_000001_000005_000009_000057_000039_000247_000073_000613_001047_003289_002569_005363_018475_032749_039415,
  1_035058_000001_000003_000001_000005_000019_000023_000039_000033_000151_000463_000153_000737_002501_007531_002769_035595_071799,
  1_035063_000001_000003_000005_000005_000029_000049_000105_000081_000067_000441_001101_002241_006243_006177_007157_051635_081241,
  1_035082_000001_000003_000003_000003_000029_000053_000013_000239_000487_000503_000097_001323_001817_013021_012881_026943_021011,
  1_035095_000001_000001_000001_000015_000025_000009_000005_000205_000085_000635_000789_002495_005069_004987_000847_026857_084225,
  1_035096_000001_000001_000003_000015_000009_000051_000079_000013_000377_000637_000159_003407_002057_013967_031781_040869_052987,
  1_035101_000001_000003_000001_000013_000011_000027_000103_000207_000383_000887_000749_001119_000285_004269_031745_057539_005671,
  1_035102_000001_000003_000001_000013_000023_000019_000041_000043_000455_000425_001653_004091_004855_016321_000169_059289_082397,
  1_035105_000001_000003_000003_000015_000031_000039_000051_000127_000391_000989_001831_003327_006487_006077_017277_052093_020389,
  1_035112_000001_000003_000005_000015_000019_000001_000021_000241_000015_000543_001529_002355_001503_012795_017321_041219_061115,
  1_035118_000001_000001_000003_000011_000009_000033_000021_000197_000307_000141_001663_000371_001663_008307_003617_056941_062477,
  1_035120_000001_000003_000007_000009_000019_000053_000123_000003_000029_000635_001795_002471_002491_015847_009169_002561_101515,
  1_035130_000001_000001_000005_000003_000019_000011_000117_000231_000475_000837_001833_003499_004415_009961_028285_037821_081497,
  1_035143_000001_000001_000003_000005_000007_000011_000057_000089_000345_000157_001519_003021_007157_002159_032557_031559_128907,
  1_035147_000001_000001_000007_000003_000027_000001_000015_000177_000489_000405_000811_003597_004939_015595_007279_058097_084703,
  1_035152_000001_000003_000001_000009_000025_000061_000119_000219_000111_000339_001091_000759_006087_016001_006757_015627_001691,
  1_035157_000001_000003_000007_000009_000001_000039_000107_000139_000143_000917_000421_001623_007135_004851_006687_006177_102425,
  1_035164_000001_000001_000007_000013_000023_000017_000019_000167_000317_000331_000743_003737_002195_000545_002185_009125_030503,
  1_035178_000001_000001_000005_000013_000027_000033_000117_000141_000493_000129_001553_002335_004161_014205_024177_035163_084869,
  1_035195_000001_000003_000007_000001_000011_000009_000075_000133_000113_000507_002007_002473_004769_014655_017967_017709_090653,
  1_035197_000001_000001_000007_000011_000017_000011_000083_000023_000387_000061_000029_003905_004351_015173_028375_009129_111939,
  1_035201_000001_000001_000005_000015_000015_000053_000081_000125_000189_000937_001607_002595_002847_007229_022241_026269_064781,
  1_035207_000001_000003_000001_000007_000005_000011_000061_000111_000013_000423_000885_002329_006003_016331_011207_025743_054619,
  1_035231_000001_000003_000005_000009_000001_000013_000095_000241_000237_000629_000263_001629_001063_012695_014501_005455_121483,
  1_035249_000001_000001_000007_000015_000005_000017_000045_000255_000143_000079_000087_001755_006215_005095_032411_008695_085511,
  1_035250_000001_000003_000007_000007_000021_000011_000117_000135_000333_000073_001471_002749_005801_004209_009353_046171_090645,
  1_035256_000001_000001_000007_000013_000011_000035_000077_000149_000159_000783_001527_002881_001409_003455_026991_003225_030693,
  1_035259_000001_000001_000003_000015_000019_000055_000021_000245_000207_000103_000775_002041_004637_007333_011267_060509_043099,
  1_035262_000001_000003_000003_000015_000017_000063_000023_000081_000183_000923_000075_000391_000615_013343_020839_056529_115747,
  1_035273_000001_000003_000001_000013_000005_000005_000015_000027_000263_000497_001365_002733_005395_007461_002725_024735_089251,
  1_035282_000001_000001_000007_000007_000029_000017_000039_000117_000363_000915_000123_000283_004575_003497_020995_037883_016645,
  1_035298_000001_000003_000003_000009_000001_000025_000079_000181_000331_000617_000393_001807_005145_008007_009173_045189_037945,
  1_035307_000001_000003_000001_000005_000001_000009_000127_000137_000379_000371_000367_003237_000581_015295_018191_037689_103495,
  1_035328_000001_000001_000007_000001_000029_000053_000103_000173_000171_000973_000933_003847_003185_010107_031701_045021_106251,
  1_035334_000001_000001_000001_000007_000023_000009_000061_000025_000343_000471_002041_002179_007647_001885_015353_050379_067681,
  1_035343_000001_000001_000005_000011_000031_000013_000051_000185_000083_000917_000085_001317_008185_014949_032455_057939_001217,
  1_035345_000001_000001_000007_000005_000023_000045_000101_000227_000497_000941_000985_000167_006847_009611_020011_040069_083285,
  1_035355_000001_000001_000005_000013_000017_000033_000061_000197_000433_000255_000067_001479_005663_006501_030695_027235_080141,
  1_035388_000001_000001_000003_000005_000011_000045_000123_000049_000327_000893_001963_002225_002611_008925_022811_002313_008411,
  1_035399_000001_000003_000007_000007_000015_000039_000075_000235_000013_000847_000575_003947_006947_002061_013467_000103_086285,
  1_035403_000001_000001_000007_000003_000021_000043_000113_000197_000141_000873_001139_002707_007235_010683_010831_033695_057063,
  1_035408_000001_000003_000005_000001_000003_000027_000045_000043_000119_000979_001933_001851_006497_014937_004965_041285_120221,
  1_035413_000001_000001_000003_000001_000023_000059_000067_000007_000049_000351_001053_001837_000501_007671_026239_051951_095119,
  1_035418_000001_000003_000005_000011_000003_000019_000033_000033_000219_000175_001439_000197_001841_000159_011229_020463_081797,
  1_035434_000001_000001_000007_000001_000013_000011_000079_000075_000053_000525_000091_000233_005999_002921_021295_056831_116049,
  1_035436_000001_000003_000003_000013_000029_000007_000071_000207_000193_000635_001393_003093_003775_012445_023281_029401_103225,
  1_035448_000001_000001_000007_000003_000029_000057_000111_000163_000063_000593_000881_001587_003027_012599_030977_038891_095495,
  1_035460_000001_000001_000005_000015_000017_000057_000111_000169_000149_000767_000377_000765_007533_001539_022979_055489_029799,
  1_035475_000001_000003_000005_000015_000025_000007_000127_000071_000319_000389_000497_001513_001287_007359_012311_045457_045897,
  1_035494_000001_000001_000005_000003_000003_000035_000045_000017_000049_000483_000197_000727_005355_007201_003035_014313_040933,
  1_035497_000001_000001_000007_000015_000001_000009_000027_000059_000455_000653_001907_000281_001435_014593_018909_037655_087603,
  1_035503_000001_000001_000007_000011_000029_000009_000067_000017_000353_000709_000859_003687_007741_004251_012263_041717_079393,
  1_035508_000001_000003_000003_000003_000001_000015_000113_000187_000255_000851_000503_004089_007923_001701_000305_008353_016357,
  1_035511_000001_000001_000005_000003_000017_000031_000029_000233_000377_000215_001889_003459_002443_003907_004193_016519_049089,
  1_035518_000001_000001_000003_000001_000017_000039_000011_000255_000247_000305_000669_001769_001355_012055_002275_051681_112337,
  1_035520_000001_000003_000001_000001_000017_000017_000075_000095_000409_000021_001513_001443_004931_006491_001587_062979_090395,
  1_035530_000001_000001_000003_000005_000003_000019_000125_000175_000279_000911_000301_000407_007773_000949_032107_013571_058717,
  1_035537_000001_000003_000003_000015_000031_000035_000011_000223_000125_000209_001719_001725_003387_014879_032243_007219_126791,
  1_035543_000001_000001_000003_000001_000031_000029_000067_000079_000093_000193_001573_002285_003209_008397_017717_005657_061545,
  1_035560_000001_000003_000001_000009_000011_000033_000085_000121_000193_000063_000461_001835_000889_010687_019831_049551_059087,
  1_035566_000001_000003_000003_000007_000011_000003_000009_000087_000091_000487_000289_001113_008135_007971_016693_031009_081197,
  1_035571_000001_000003_000003_000001_000023_000023_000061_000209_000409_000845_000547_001493_000465_006399_017633_053647_052425,
  1_035598_000001_000001_000007_000007_000021_000031_000071_000249_000063_000895_000653_000093_004429_008951_016873_048089_033947,
  1_035609_000001_000003_000005_000011_000003_000035_000049_000015_000379_000645_000855_003657_008019_002141_011233_060731_080455,
  1_035612_000001_000003_000001_000003_000001_000053_000101_000157_000255_000765_001575_001615_007677_009699_013351_002207_090939]

def dirRows17_1_16 : List Nat := [
  1_035615_000001_000003_000007_000007_000005_000043_000123_000109_000119_000391_001889_001991_003151_001457_016321_065245_075891,
  1_035616_000001_000003_000001_000015_000009_000001_000113_000249_000001_000675_000501_000487_002209_004411_006609_029243_100177,
  1_035622_000001_000001_000001_000007_000009_000023_000009_000197_000341_000191_000453_003733_005475_015515_028979_036077_017801,
  1_035626_000001_000001_000003_000013_000005_000035_000085_000121_000059_000429_001251_003437_003121_012411_014713_028125_031921,
  1_035633_000001_000003_000005_000003_000027_000017_000061_000255_000485_000709_000083_003201_002191_003371_002941_010931_022141,
  1_035636_000001_000001_000001_000001_000019_000019_000025_000177_000397_000579_000529_001619_003887_004537_008123_052481_008305,
  1_035645_000001_000001_000003_000015_000003_000015_000077_000051_000031_000881_000203_002359_004947_006321_014705_016471_084395,
  1_035653_000001_000003_000007_000009_000013_000053_000067_000041_000289_000721_001743_002725_000435_001327_014953_014283_113211,
  1_035663_000001_000003_000001_000005_000019_000023_000073_000181_000187_000675_000125_001877_006167_007919_003955_025007_028299,
  1_035665_000001_000001_000003_000001_000005_000011_000123_000189_000173_000123_000499_002175_000483_013017_014709_005797_036327,
  1_035682_000001_000003_000007_000005_000021_000039_000079_000229_000019_000203_000375_003901_001053_014209_013535_063155_099727,
  1_035687_000001_000001_000001_000013_000011_000029_000029_000173_000441_000271_001147_002891_000965_010777_016325_037135_101601,
  1_035688_000001_000001_000003_000003_000025_000013_000079_000233_000075_000191_000987_003231_003667_001525_014193_062027_077441,
  1_035691_000001_000003_000001_000001_000015_000053_000017_000045_000367_000263_000425_001565_006139_013833_012547_061103_075361,
  1_035696_000001_000001_000005_000015_000005_000057_000123_000047_000407_000887_000375_001181_005367_010283_024799_033121_076373,
  1_035727_000001_000001_000007_000003_000011_000017_000065_000133_000003_000609_000601_003391_007801_004137_032095_055983_023037,
  1_035741_000001_000003_000001_000003_000025_000005_000125_000005_000297_000571_000145_003601_001929_013457_016977_021049_092169,
  1_035742_000001_000003_000005_000013_000023_000029_000013_000143_000507_000187_000857_000427_005125_001377_010947_058473_110541,
  1_035746_000001_000003_000003_000015_000015_000049_000039_000103_000193_000507_000639_002399_003829_012105_015993_052975_115935,
  1_035748_000001_000003_000007_000003_000007_000041_000095_000127_000193_000923_001729_003039_007959_003345_007725_035293_034361,
  1_035752_000001_000003_000005_000013_000017_000053_000111_000141_000151_000389_001955_003333_004523_006331_021239_057447_113325,
  1_035770_000001_000003_000007_000015_000031_000007_000011_000035_000105_000607_001665_003281_000487_009417_026205_026963_081537,
  1_035811_000001_000003_000001_000001_000017_000015_000003_000055_000451_000691_001525_002009_006443_004629_015091_046961_083361,
  1_035817_000001_000003_000001_000015_000001_000029_000099_000079_000225_000665_000623_002389_003303_007221_020567_015917_024677,
  1_035832_000001_000001_000003_000015_000003_000017_000125_000239_000485_000849_000327_001459_003911_002145_014475_024337_019695,
  1_035838_000001_000003_000005_000007_000007_000037_000019_000051_000373_000587_000147_000563_007623_007781_018289_037239_006803,
  1_035850_000001_000003_000005_000001_000009_000063_000005_000087_000171_000005_001553_000429_005001_007881_001493_020425_057727,
  1_035863_000001_000003_000005_000009_000025_000043_000017_000071_000087_000869_001219_002661_004571_009689_018799_062467_128531,
  1_035870_000001_000001_000003_000003_000019_000053_000061_000009_000055_000433_001555_002369_001423_009081_019185_008513_111079,
  1_035879_000001_000003_000005_000015_000011_000061_000001_000147_000017_000071_001563_001113_004809_016229_023743_059757_064699,
  1_035880_000001_000001_000005_000011_000029_000023_000061_000043_000203_000097_001119_000237_006445_014507_009799_018447_014745,
  1_035891_000001_000003_000005_000015_000011_000017_000117_000139_000117_000537_000251_000149_002731_015863_001381_025435_025501,
  1_035893_000001_000003_000003_000015_000031_000057_000053_000043_000095_000445_001423_003833_002485_011789_016011_008101_039165,
  1_035903_000001_000001_000003_000011_000015_000037_000117_000003_000245_000057_000593_002771_007181_011397_005691_003217_044139,
  1_035905_000001_000003_000005_000001_000011_000013_000121_000085_000085_000511_001837_000611_000237_004893_024025_028903_102025,
  1_035926_000001_000003_000001_000011_000005_000045_000043_000045_000393_000741_001157_001511_001665_002359_019071_024537_122879,
  1_035930_000001_000003_000003_000003_000009_000059_000027_000011_000257_000203_001535_002729_002313_003539_001689_031901_042949,
  1_035941_000001_000001_000001_000011_000017_000007_000021_000035_000479_000697_000107_001317_006585_000705_003789_020439_033375,
  1_035956_000001_000001_000003_000011_000019_000037_000123_000233_000253_000733_000901_003047_003595_002357_024533_040519_109171,
  1_035963_000001_000003_000003_000013_000029_000051_000025_000149_000057_000253_002001_000351_007367_015361_004955_060951_019449,
  1_035970_000001_000001_000003_000015_000021_000053_000025_000239_000257_000437_000711_003599_005441_007405_015039_019207_063841,
  1_035984_000001_000003_000001_000009_000017_000041_000043_000231_000413_000747_001447_001407_002615_014529_010781_020001_082713,
  1_035996_000001_000003_000007_000007_000009_000029_000025_000055_000053_000423_001711_002871_002675_000421_031703_057099_002955,
  1_036005_000001_000003_000001_000007_000031_000017_000113_000083_000387_000611_001815_002137_003453_004409_020377_060263_081205,
  1_036012_000001_000001_000005_000003_000011_000001_000007_000225_000367_000267_000095_000939_003801_002619_001207_062695_116407,
  1_036015_000001_000003_000003_000009_000005_000039_000085_000045_000247_000483_000491_000865_003493_008243_008411_026449_050473,
  1_036030_000001_000003_000003_000009_000001_000053_000023_000127_000013_000529_001925_002629_003451_015073_016075_029909_034101,
  1_036035_000001_000003_000001_000011_000001_000009_000125_000057_000079_000633_000979_003843_000325_000883_007769_040155_104057,
  1_036042_000001_000001_000007_000013_000023_000053_000027_000157_000493_000901_001077_001079_001327_015903_020603_064377_103335,
  1_036047_000001_000003_000003_000003_000003_000035_000037_000167_000073_000301_000385_001045_006913_002269_022491_019735_070125,
  1_036049_000001_000001_000001_000011_000005_000023_000023_000085_000267_000845_000207_000077_001245_016209_025579_012417_048723,
  1_036059_000001_000001_000005_000015_000011_000017_000043_000083_000373_001005_000541_000115_000163_002165_008181_035839_044471,
  1_036071_000001_000003_000005_000007_000027_000041_000101_000013_000213_000235_002037_002179_002121_004481_008127_020011_003981,
  1_036080_000001_000001_000005_000011_000007_000043_000059_000129_000127_000387_000489_001985_000623_013307_019765_062155_093271,
  1_036085_000001_000001_000007_000005_000023_000063_000023_000177_000211_000233_000101_001809_007411_008003_025101_032601_075071,
  1_036097_000001_000001_000001_000011_000003_000025_000009_000091_000459_000611_000867_003639_005457_009101_015333_040069_067723,
  1_036110_000001_000003_000007_000005_000003_000029_000111_000075_000459_000195_001405_002281_006085_004425_029061_057335_087449,
  1_036115_000001_000003_000007_000011_000021_000045_000053_000081_000077_000863_001901_003355_005253_010897_026289_048399_026877,
  1_036118_000001_000003_000003_000013_000021_000037_000069_000087_000259_000101_001203_000167_006229_000145_009355_015347_068047,
  1_036124_000001_000001_000003_000001_000031_000001_000015_000229_000429_000915_000929_000381_001857_008441_022207_047071_127853,
  1_036137_000001_000003_000007_000003_000015_000009_000013_000161_000173_000573_000405_003253_007331_013965_003061_040687_130185,
  1_036138_000001_000003_000005_000005_000029_000029_000009_000115_000393_000377_000909_000321_002861_009881_017863_052033_055133,
  1_036155_000001_000001_000007_000007_000027_000053_000101_000213_000199_000301_001995_002549_005037_013639_018423_023547_079359,
  1_036160_000001_000003_000001_000007_000021_000051_000029_000151_000301_000665_000571_000053_002637_007229_012517_033647_049413,
  1_036189_000001_000003_000003_000013_000013_000049_000049_000131_000325_000273_001127_002981_002365_014287_023185_026915_081755,
  1_036190_000001_000001_000005_000003_000017_000045_000025_000079_000037_000265_001205_001805_006707_011525_016473_039525_009571,
  1_036203_000001_000003_000003_000015_000009_000043_000055_000101_000469_000939_000365_003443_005759_004751_028893_046727_074569,
  1_036211_000001_000003_000007_000009_000005_000033_000011_000201_000263_000227_001475_002795_001489_011129_018053_031009_073105,
  1_036218_000001_000003_000005_000005_000005_000025_000041_000151_000393_000237_002017_003811_000953_013835_028761_022439_076355,
  1_036230_000001_000001_000005_000013_000021_000037_000029_000011_000289_000067_001317_000511_000685_015227_008731_015039_079491,
  1_036241_000001_000003_000001_000009_000031_000059_000123_000169_000473_000139_000575_001057_003213_008213_021845_028123_105335,
  1_036244_000001_000001_000001_000005_000021_000047_000023_000121_000403_000005_001457_002137_000569_009267_006367_006991_003113,
  1_036253_000001_000003_000003_000007_000013_000007_000025_000215_000081_001003_002041_001317_003913_014705_030551_050889_083441,
  1_036257_000001_000003_000003_000003_000013_000017_000063_000229_000083_000901_000953_002603_004685_006961_007519_052441_033223,
  1_036264_000001_000003_000007_000005_000007_000057_000065_000073_000243_000531_000261_002517_004083_005889_022913_049603_067135,
  1_036272_000001_000003_000005_000011_000015_000047_000081_000083_000035_001021_001313_001109_005103_005469_018149_015307_034939,
  1_036290_000001_000003_000007_000005_000021_000013_000105_000157_000435_000023_000931_003565_000001_004987_008829_007327_051049,
  1_036292_000001_000001_000003_000011_000029_000009_000059_000049_000261_001009_001953_002683_008125_010937_016683_036013_005967,
  1_036301_000001_000001_000001_000001_000019_000029_000057_000009_000307_000457_000675_003023_000495_015257_007945_010449_030155,
  1_036309_000001_000001_000007_000013_000025_000009_000051_000135_000491_000205_001715_003253_001031_004137_014885_039925_006061,
  1_036313_000001_000001_000007_000007_000003_000013_000111_000091_000469_000133_001221_001035_000919_003697_026387_041675_000487,
  1_036316_000001_000001_000003_000001_000019_000053_000011_000113_000245_000747_000189_004051_000087_001767_003595_010259_100097,
  1_036319_000001_000001_000005_000003_000023_000049_000031_000047_000341_001019_000723_002353_006191_003809_003297_039443_073529,
  1_036330_000001_000003_000003_000009_000025_000027_000123_000049_000051_000085_001063_002633_006549_014493_007367_003557_060651,
  1_036335_000001_000003_000007_000005_000013_000027_000127_000065_000115_000731_001147_000283_000091_014205_002457_057083_035815,
  1_036347_000001_000003_000003_000003_000025_000063_000099_000249_000025_000951_000733_003621_007139_014223_023641_020287_030743,
  1_036353_000001_000003_000003_000007_000021_000023_000083_000207_000235_000467_001857_002661_001391_010097_012297_054825_005035,
  1_036356_000001_000001_000005_000003_000031_000017_000077_000009_000215_000553_000989_003643_000729_002057_032053_050305_005499,
  1_036368_000001_000001_000007_000001_000023_000005_000111_000195_000431_000947_000403_001781_000943_015073_000067_052225_098987,
  1_036374_000001_000001_000005_000011_000023_000001_000041_000033_000457_000767_000275_000801_005119_003781_014805_052789_041775,
  1_036377_000001_000001_000005_000003_000009_000053_000015_000183_000281_000691_000165_003277_007673_001509_016605_053799_100185,
  1_036384_000001_000003_000005_000011_000019_000045_000029_000159_000167_000067_001259_000879_007787_008855_024153_042667_102855,
  1_036407_000001_000001_000007_000013_000031_000019_000043_000133_000295_000287_001985_002451_002297_003853_022401_027659_011149,
  1_036413_000001_000001_000007_000013_000031_000039_000125_000021_000173_000103_001119_003739_006467_002113_004465_026537_129949,
  1_036419_000001_000001_000005_000015_000021_000047_000035_000125_000199_000335_000421_000031_000185_012769_030659_033427_106981,
  1_036425_000001_000003_000005_000013_000025_000035_000053_000253_000325_000921_001705_002735_006437_002287_020479_061107_091453,
  1_036426_000001_000003_000007_000013_000025_000063_000083_000183_000005_000401_000329_000525_003141_000393_030469_016529_009605,
  1_036446_000001_000003_000003_000013_000019_000023_000015_000085_000323_000545_000149_003645_006269_015595_018453_000039_128169,
  1_036461_000001_000003_000007_000015_000017_000005_000061_000061_000091_000353_001039_002959_004147_013205_012599_053281_039509,
  1_036467_000001_000001_000003_000007_000021_000009_000097_000111_000249_000775_000845_001789_000667_000489_006689_029217_056527]

def dirRows17_1_17 : List Nat := [
  1_036474_000001_000003_000005_000007_000011_000005_000059_000219_000029_000803_000923_003861_007953_008969_001819_043501_020513,
  1_036480_000001_000001_000005_000011_000007_000053_000063_000231_000193_000293_001467_001409_006397_013237_015903_019271_066257,
  1_036486_000001_000003_000001_000015_000023_000015_000037_000123_000189_000063_001121_000751_006711_010095_006493_040709_047641,
  1_036489_000001_000003_000007_000003_000023_000059_000099_000183_000249_000479_000771_001087_007979_000409_004819_004337_033345,
  1_036495_000001_000001_000005_000001_000017_000007_000015_000167_000305_000411_001429_003127_000023_009123_007185_044405_114841,
  1_036525_000001_000001_000005_000011_000003_000029_000029_000031_000399_000777_000251_001841_003607_000211_023543_029111_054565,
  1_036526_000001_000003_000003_000009_000027_000033_000079_000027_000469_000067_001327_000183_005783_010039_013165_020443_004913,
  1_036533_000001_000003_000007_000015_000021_000023_000005_000227_000141_001021_000069_003347_007221_013837_020921_020525_032567,
  1_036534_000001_000001_000005_000005_000025_000053_000073_000111_000319_000311_001597_001809_005343_013963_006613_014471_053871,
  1_036540_000001_000003_000003_000001_000015_000057_000047_000205_000053_000471_000185_000273_008077_005031_031195_030859_015979,
  1_036555_000001_000001_000003_000005_000023_000015_000087_000211_000083_000265_001629_002979_000069_012559_030455_036363_061461,
  1_036563_000001_000001_000007_000007_000001_000047_000005_000199_000095_000017_000057_001887_006847_009501_021361_057763_077069,
  1_036565_000001_000001_000003_000005_000009_000015_000015_000149_000141_000605_000639_002197_007237_005753_009415_004677_129947,
  1_036588_000001_000003_000007_000001_000007_000009_000029_000249_000275_000461_001667_004093_005763_003205_024079_011883_086455,
  1_036593_000001_000001_000003_000005_000015_000039_000117_000145_000153_000671_001819_000111_003607_012279_004927_063759_042905,
  1_036596_000001_000001_000001_000005_000031_000005_000035_000183_000189_000839_001811_001877_006545_011373_027947_027183_029857,
  1_036606_000001_000003_000005_000007_000029_000047_000003_000183_000511_000145_001953_003419_006385_007745_012823_059783_069399,
  1_036614_000001_000003_000005_000009_000005_000039_000085_000145_000033_000899_001009_002035_006145_003855_020583_004329_095231,
  1_036626_000001_000001_000003_000003_000015_000061_000085_000181_000247_000705_000413_001633_007489_001785_030397_042851_080197,
  1_036628_000001_000003_000003_000013_000023_000011_000003_000097_000307_000183_000113_003881_007455_008327_006749_023977_101629,
  1_036641_000001_000001_000007_000013_000001_000023_000059_000219_000125_000789_001401_000707_006915_006275_025813_046595_054119,
  1_036642_000001_000003_000007_000009_000005_000007_000037_000033_000165_000181_000833_001993_004541_005799_023323_039825_044575,
  1_036651_000001_000003_000001_000013_000013_000043_000069_000219_000437_000521_000503_002293_003607_006845_022583_000291_065645,
  1_036653_000001_000001_000007_000009_000029_000013_000123_000067_000191_000933_001875_001223_005525_013797_029771_058191_084469,
  1_036673_000001_000001_000007_000007_000003_000057_000101_000069_000023_000239_001023_003289_001541_006245_023379_000161_061155,
  1_036676_000001_000003_000007_000013_000025_000033_000049_000145_000487_000681_000451_001719_000109_016273_020009_003003_115815,
  1_036679_000001_000001_000005_000011_000011_000059_000041_000133_000303_000469_001975_000847_005291_013947_008759_008533_025099,
  1_036694_000001_000001_000001_000001_000029_000031_000053_000011_000239_000057_001627_001247_001577_003269_020751_004627_040499,
  1_036698_000001_000003_000007_000015_000001_000001_000051_000039_000383_000203_001841_003867_004975_009937_001863_052611_083189,
  1_036704_000001_000003_000007_000007_000013_000059_000015_000217_000355_000945_001317_000815_002413_010985_030647_037745_126553,
  1_036714_000001_000001_000003_000011_000007_000029_000101_000137_000097_000119_000927_003269_006977_004253_010741_061907_122815,
  1_036721_000001_000003_000003_000001_000029_000005_000049_000137_000411_000349_000905_002481_004961_004513_029409_019503_077915,
  1_036722_000001_000001_000007_000013_000029_000059_000093_000061_000393_000029_000257_003601_006281_005105_017339_053827_083137,
  1_036727_000001_000001_000001_000013_000005_000023_000061_000007_000051_000161_000737_001549_006021_003385_005539_021261_069995,
  1_036749_000001_000001_000001_000015_000031_000001_000021_000113_000481_000007_000175_000717_001593_005937_012347_051835_066649,
  1_036758_000001_000001_000003_000007_000009_000051_000009_000199_000039_000607_001157_003913_007767_014195_028721_027655_034709,
  1_036761_000001_000003_000005_000005_000001_000015_000049_000033_000441_000721_001749_001497_002023_008351_012641_011861_078545,
  1_036771_000001_000003_000001_000007_000007_000017_000103_000113_000243_000025_000889_001419_003163_012401_022459_039037_101719,
  1_036788_000001_000001_000007_000011_000017_000045_000121_000215_000003_000409_001871_002149_004249_005071_014277_055869_091233,
  1_036797_000001_000001_000003_000007_000019_000031_000047_000241_000175_000749_001709_000355_006037_010555_024107_064683_042673,
  1_036805_000001_000003_000007_000011_000005_000021_000105_000137_000307_000101_000417_001903_001027_010257_027767_009755_092105,
  1_036830_000001_000001_000003_000013_000009_000059_000011_000063_000295_000923_000401_001471_003517_007761_028855_011525_072455,
  1_036833_000001_000001_000007_000015_000031_000051_000077_000029_000323_000579_001313_003441_002903_001683_020605_008185_029753,
  1_036839_000001_000001_000005_000015_000011_000059_000119_000109_000233_001001_001527_002709_000073_005311_018313_027155_085999,
  1_036843_000001_000003_000001_000005_000009_000059_000105_000093_000213_000401_000839_003225_003263_013501_002413_060367_121281,
  1_036860_000001_000001_000007_000003_000019_000025_000075_000027_000325_000435_000527_001465_003601_005785_006135_032841_060129,
  1_036866_000001_000001_000003_000007_000031_000019_000037_000157_000189_000051_000869_002963_005269_009151_014845_030441_089685,
  1_036871_000001_000003_000003_000009_000017_000051_000023_000177_000417_000255_001739_003085_007811_015177_025433_038487_051021,
  1_036875_000001_000001_000003_000007_000027_000001_000045_000235_000059_000491_001327_003967_007585_004313_029669_047193_089427,
  1_036877_000001_000001_000003_000009_000019_000005_000027_000063_000263_000593_001599_001311_001029_000603_025291_051391_098915,
  1_036880_000001_000003_000003_000015_000011_000007_000097_000099_000263_000155_000437_003849_002665_003371_008179_051883_003601,
  1_036892_000001_000001_000003_000015_000007_000035_000037_000149_000251_000619_001423_000553_004453_016365_022543_006951_034655,
  1_036911_000001_000003_000003_000011_000015_000021_000095_000143_000031_000425_000179_002383_004799_007655_026945_009273_103469,
  1_036914_000001_000003_000001_000009_000013_000049_000003_000117_000361_000459_000227_002067_004909_013461_022505_010259_059697,
  1_036916_000001_000001_000007_000007_000007_000023_000067_000217_000313_000965_001747_000995_000579_006217_008915_049329_000851,
  1_036923_000001_000001_000003_000001_000017_000019_000007_000099_000281_000207_001685_002401_000967_009399_028741_028839_006003,
  1_036940_000001_000003_000003_000005_000031_000061_000105_000251_000499_000319_001167_002203_001195_002663_011797_012981_125523,
  1_036943_000001_000003_000001_000005_000023_000019_000099_000101_000085_000837_000501_002737_004051_002413_009275_038995_021633,
  1_036948_000001_000003_000007_000013_000017_000017_000119_000075_000281_000527_001477_001515_007765_005573_010143_006219_057817,
  1_036957_000001_000001_000005_000011_000019_000035_000085_000171_000107_000905_001395_001199_007345_015719_014021_047425_036081,
  1_036958_000001_000001_000003_000009_000009_000063_000109_000015_000323_000073_001541_002227_005197_012617_023379_053415_105291,
  1_036967_000001_000003_000003_000005_000005_000041_000085_000099_000003_000895_001383_003627_003897_001893_023673_056501_078411,
  1_036974_000001_000001_000007_000001_000025_000027_000045_000185_000475_000577_001619_000727_001407_002383_009215_055295_027349,
  1_036981_000001_000003_000007_000011_000003_000051_000053_000053_000399_000711_001075_000511_005369_010777_014419_063217_130181,
  1_037001_000001_000001_000007_000013_000025_000019_000107_000071_000151_000073_000735_003837_005307_010229_010529_009989_111925,
  1_037012_000001_000001_000001_000015_000019_000059_000065_000077_000465_000957_001085_001359_003959_015823_006273_012565_126167,
  1_037015_000001_000001_000005_000005_000031_000053_000023_000173_000407_000795_000041_003275_001953_013673_026625_033477_014149,
  1_037019_000001_000001_000007_000007_000001_000011_000121_000139_000077_000321_001939_002597_000621_009579_011629_013119_030505,
  1_037035_000001_000001_000001_000005_000003_000033_000045_000127_000169_000581_001521_001019_006489_001069_002469_040255_066619,
  1_037040_000001_000003_000007_000005_000029_000047_000007_000245_000459_000417_001027_000857_004905_011255_003267_009491_078013,
  1_037063_000001_000003_000005_000009_000025_000049_000061_000215_000019_000731_000303_001001_006031_003705_007797_031957_119383,
  1_037064_000001_000003_000005_000005_000001_000009_000037_000187_000235_000453_000963_002833_003501_000605_002763_041215_093547,
  1_037069_000001_000003_000001_000001_000021_000003_000041_000053_000425_000687_001051_002365_007835_003981_005557_061993_127417,
  1_037077_000001_000003_000003_000007_000013_000061_000041_000189_000261_000163_001931_001803_002379_016379_025453_017911_123431,
  1_037093_000001_000001_000007_000015_000023_000021_000095_000007_000027_000897_000721_003917_007971_004643_005223_046583_032453,
  1_037097_000001_000001_000007_000007_000001_000025_000083_000109_000223_000573_000533_000449_006477_010719_028705_008283_094963,
  1_037106_000001_000001_000005_000013_000021_000045_000063_000031_000021_000223_000031_001249_000425_007199_011539_007731_044333,
  1_037115_000001_000001_000005_000015_000029_000005_000087_000215_000287_000567_000297_000451_005867_015511_001005_057469_087257,
  1_037118_000001_000003_000005_000011_000013_000051_000117_000139_000377_001015_001237_002053_007625_001003_022673_064345_016203,
  1_037123_000001_000001_000003_000015_000019_000039_000073_000205_000185_000331_000869_000857_005043_007247_025253_005799_064857,
  1_037129_000001_000003_000007_000001_000025_000063_000125_000047_000161_000289_000373_001603_001663_001123_028907_037855_047935,
  1_037130_000001_000001_000007_000015_000009_000017_000097_000063_000079_000123_001357_003055_002323_016083_021861_038743_081291,
  1_037135_000001_000001_000003_000015_000005_000023_000007_000159_000127_000511_000055_002691_006823_016151_008059_043021_018911,
  1_037137_000001_000001_000003_000009_000027_000019_000041_000075_000375_000921_001745_000035_001189_005857_029869_043827_016899,
  1_037138_000001_000001_000001_000005_000003_000021_000013_000235_000051_000529_000291_002619_005419_012573_010907_008865_054987,
  1_037140_000001_000003_000001_000013_000007_000009_000085_000131_000159_000743_001671_003001_004559_012343_027563_049941_068447,
  1_037144_000001_000001_000007_000005_000017_000061_000099_000063_000199_000383_000485_002569_005329_000645_018805_020421_101229,
  1_037149_000001_000001_000001_000015_000003_000059_000041_000247_000213_000843_002003_000125_007755_004203_020277_047195_048249,
  1_037156_000001_000001_000005_000015_000015_000017_000113_000101_000027_000811_001791_001777_000749_014317_017267_054467_118369,
  1_037159_000001_000003_000003_000003_000019_000037_000023_000117_000275_000733_001259_000567_001769_012071_005413_049411_099259,
  1_037163_000001_000003_000001_000011_000003_000027_000103_000113_000251_000731_000481_002771_003205_014151_019403_030307_114691,
  1_037165_000001_000001_000005_000015_000019_000015_000103_000025_000357_000197_001437_003621_004747_000773_005769_033465_028307,
  1_037183_000001_000001_000005_000015_000005_000017_000089_000087_000423_000611_000549_002549_001275_014545_002931_003853_024577,
  1_037185_000001_000003_000005_000001_000015_000013_000029_000049_000279_000495_000697_001015_004899_015977_010765_047979_040237,
  1_037195_000001_000003_000003_000009_000031_000051_000021_000005_000279_000947_001871_003075_005433_001631_030075_030517_099609,
  1_037198_000001_000001_000001_000015_000019_000063_000079_000081_000019_000629_000617_001887_004015_015501_010551_056419_108739,
  1_037203_000001_000001_000003_000009_000031_000015_000045_000037_000043_000349_001357_000189_004551_009363_015683_048445_089279,
  1_037212_000001_000001_000001_000001_000017_000019_000121_000119_000397_000947_001797_000613_001627_009591_015779_062295_118843,
  1_037233_000001_000001_000001_000007_000025_000055_000071_000227_000507_000497_001209_002919_005733_015785_021437_040043_002325,
  1_037236_000001_000001_000001_000015_000011_000001_000059_000093_000069_000859_000067_001831_006345_005643_029515_020337_077281]

def dirRows17_1_18 : List Nat := [
  1_037240_000001_000003_000005_000009_000019_000053_000059_000063_000161_000853_000697_001441_003457_000951_029659_015337_038443,
  1_037256_000001_000003_000001_000009_000007_000021_000073_000081_000089_000291_000411_003793_004639_002829_006855_038113_032875,
  1_037264_000001_000001_000007_000001_000015_000003_000079_000035_000363_000459_000907_001157_005165_008021_010135_036367_111991,
  1_037267_000001_000003_000005_000013_000021_000023_000063_000155_000393_000869_001553_003345_002711_008249_024907_028111_036667,
  1_037273_000001_000001_000007_000011_000015_000025_000029_000093_000045_000637_001473_002053_000313_008047_023411_008643_002925,
  1_037295_000001_000003_000007_000009_000011_000005_000073_000069_000311_000949_002017_000259_002861_010547_012017_034125_074101,
  1_037315_000001_000003_000001_000013_000019_000061_000115_000059_000447_000787_001621_002221_007841_005329_018137_013857_051889,
  1_037330_000001_000003_000007_000013_000001_000023_000117_000049_000449_000541_000007_003269_001725_006677_015979_004319_040919,
  1_037336_000001_000003_000005_000005_000017_000029_000035_000123_000003_000481_000305_001589_004319_005183_031907_053019_049375,
  1_037339_000001_000003_000001_000007_000011_000059_000079_000089_000479_000821_000763_003597_007457_013775_011213_022777_080379,
  1_037342_000001_000001_000003_000007_000013_000017_000065_000155_000335_000671_000331_000895_007459_001719_010675_060109_063143,
  1_037357_000001_000003_000005_000001_000029_000033_000105_000249_000061_000469_001629_003777_004393_014457_011701_006065_002635,
  1_037365_000001_000003_000007_000003_000013_000013_000021_000015_000363_000063_001263_001479_001459_006577_007481_030393_019831,
  1_037372_000001_000001_000003_000007_000029_000025_000071_000247_000501_000815_001697_002457_004975_003821_025759_024901_120603,
  1_037381_000001_000001_000001_000005_000019_000003_000059_000163_000367_000779_000047_000905_000897_003293_013951_025497_099151,
  1_037399_000001_000003_000001_000005_000011_000047_000021_000171_000123_000215_001797_003741_004921_007213_004847_003239_114839,
  1_037416_000001_000003_000003_000005_000023_000063_000057_000031_000409_000431_001337_003301_004695_007401_009383_012639_034347,
  1_037429_000001_000003_000003_000005_000027_000057_000029_000147_000111_001015_000815_001509_003967_007255_015109_026001_090775,
  1_037436_000001_000001_000007_000013_000031_000045_000021_000099_000377_000399_000255_000459_006043_011055_005675_003333_032813,
  1_037442_000001_000003_000001_000007_000001_000055_000121_000077_000429_000433_000297_003181_003029_006777_022795_061515_058553,
  1_037451_000001_000003_000005_000009_000001_000019_000121_000001_000499_000589_001597_002219_001029_004223_031613_045685_053517,
  1_037453_000001_000003_000001_000009_000029_000039_000083_000193_000043_000041_000467_001711_002761_010635_015503_038043_120615,
  1_037475_000001_000001_000007_000013_000027_000061_000001_000181_000163_000613_000221_000063_006147_008215_015093_002417_071489,
  1_037482_000001_000001_000007_000015_000031_000063_000047_000139_000427_000847_000053_001275_001019_009455_012537_022467_129947,
  1_037489_000001_000001_000005_000003_000007_000001_000067_000189_000501_000319_000037_002849_002535_010917_011115_048083_067255,
  1_037490_000001_000001_000003_000013_000007_000031_000069_000137_000019_000073_001553_003945_002381_008761_003977_024291_128189,
  1_037523_000001_000003_000005_000011_000001_000059_000043_000229_000301_000771_000559_000195_001675_012605_022211_002915_090351,
  1_037525_000001_000003_000003_000009_000013_000027_000097_000033_000273_000229_001537_001179_006985_011679_017889_044673_126641,
  1_037530_000001_000001_000007_000003_000031_000029_000041_000123_000491_000639_000269_000045_002155_014103_006725_050781_042785,
  1_037535_000001_000003_000005_000009_000009_000011_000089_000249_000475_000701_001029_000985_008167_000439_031897_024529_045759,
  1_037539_000001_000001_000005_000011_000009_000039_000127_000179_000015_000135_001437_003331_005553_000939_015319_064937_110783,
  1_037548_000001_000003_000001_000005_000007_000061_000001_000219_000111_000801_000085_003427_002533_012861_005395_028969_048091,
  1_037559_000001_000001_000001_000009_000023_000057_000077_000041_000061_000635_000457_000231_008121_005349_027021_064807_087563,
  1_037560_000001_000003_000005_000007_000031_000031_000101_000155_000255_000199_001973_000903_007681_015379_012845_047943_060663,
  1_037566_000001_000001_000005_000007_000001_000007_000071_000121_000323_000669_000193_001209_000267_000009_021223_022037_121567,
  1_037597_000001_000003_000001_000005_000017_000029_000097_000189_000219_000813_000187_001763_005817_013185_000467_040159_018037,
  1_037601_000001_000001_000007_000009_000007_000059_000003_000189_000379_000843_000631_003945_002909_004191_030343_011223_105629,
  1_037602_000001_000003_000001_000003_000015_000017_000023_000073_000439_000699_000657_000451_006139_015869_004101_032327_055485,
  1_037604_000001_000003_000003_000005_000021_000037_000087_000157_000205_000493_000705_001539_002193_013539_002797_049063_055595,
  1_037616_000001_000001_000005_000011_000011_000041_000005_000131_000445_000781_001153_001371_006763_003101_032449_016065_086579,
  1_037622_000001_000003_000005_000001_000023_000051_000097_000087_000161_000261_000269_002035_002139_003049_032217_025189_093571,
  1_037658_000001_000003_000001_000011_000023_000001_000111_000045_000019_000019_001767_003571_006027_003593_017453_053821_028121,
  1_037660_000001_000003_000003_000005_000017_000005_000017_000247_000005_000073_000029_000443_007713_015803_022311_056755_100119,
  1_037667_000001_000003_000001_000013_000007_000001_000041_000139_000317_000977_001529_001217_000529_003231_021491_028461_096699,
  1_037684_000001_000003_000001_000013_000011_000041_000103_000099_000081_000849_000231_001729_000761_000711_011499_025581_059433,
  1_037693_000001_000001_000005_000005_000013_000033_000079_000175_000089_000029_000295_002867_001197_006137_032063_023471_021721,
  1_037694_000001_000001_000005_000015_000017_000029_000123_000249_000273_000437_000443_002601_003957_011955_000261_054863_085727,
  1_037696_000001_000001_000005_000013_000003_000031_000057_000205_000003_000903_000905_003851_000757_013761_028615_048185_033227,
  1_037706_000001_000003_000007_000001_000001_000001_000107_000015_000307_000405_000045_000297_004365_001569_009263_013685_036027,
  1_037711_000001_000003_000001_000009_000017_000061_000113_000121_000249_000743_000191_002523_006621_005395_023797_057975_051675,
  1_037730_000001_000003_000005_000003_000027_000021_000049_000113_000059_000989_000501_002651_003827_005121_029667_032903_084199,
  1_037735_000001_000001_000007_000007_000019_000043_000011_000191_000143_000093_001167_002521_002569_012187_028575_013073_113545,
  1_037742_000001_000001_000007_000003_000027_000039_000011_000085_000061_000979_000049_002191_002607_013967_028123_048903_016327,
  1_037744_000001_000001_000005_000003_000017_000017_000001_000149_000189_001017_000705_003119_006441_001595_030533_018795_034265,
  1_037759_000001_000001_000003_000011_000031_000011_000125_000109_000039_000041_000191_002615_001377_016089_008793_031425_090507,
  1_037777_000001_000001_000001_000001_000023_000015_000021_000245_000337_000649_000585_002893_000927_000883_015119_002595_127963,
  1_037783_000001_000003_000005_000003_000013_000017_000123_000167_000471_000005_001671_002787_005081_012903_004257_019213_002503,
  1_037784_000001_000001_000005_000007_000021_000057_000075_000171_000509_000591_000085_000407_001747_006375_019641_055683_111289,
  1_037793_000001_000001_000007_000007_000003_000031_000121_000111_000019_000361_001033_004033_002359_013451_015095_061817_069683,
  1_037800_000001_000001_000005_000009_000021_000033_000083_000179_000387_000069_001085_002147_002751_010899_016971_040623_110891,
  1_037818_000001_000001_000007_000009_000011_000045_000081_000071_000073_000551_000145_000159_007519_003459_005197_048913_059045,
  1_037823_000001_000003_000001_000003_000007_000035_000017_000249_000207_000767_001189_001451_004351_003673_028807_000671_069271,
  1_037825_000001_000003_000001_000015_000021_000027_000081_000243_000055_000191_001497_003205_001601_000705_014891_014403_130729,
  1_037828_000001_000003_000001_000007_000017_000043_000041_000123_000507_000201_001873_003547_005681_001819_004251_039661_057923,
  1_037832_000001_000003_000001_000009_000003_000059_000057_000235_000445_000479_000961_001937_002229_002511_015235_059707_072261,
  1_037849_000001_000001_000005_000013_000009_000063_000067_000217_000063_000259_000175_002469_003075_012365_007727_042215_012635,
  1_037856_000001_000001_000003_000013_000011_000009_000125_000131_000017_000399_000675_000767_007349_010433_021615_046823_003955,
  1_037861_000001_000001_000003_000015_000019_000053_000073_000171_000125_000531_001093_001449_002931_010897_012263_009799_098251,
  1_037862_000001_000001_000005_000005_000011_000027_000033_000009_000503_000545_000339_001099_001973_013261_026871_014569_022755,
  1_037886_000001_000003_000007_000001_000019_000005_000079_000133_000247_001021_001431_003707_004603_003285_005469_046963_098203,
  1_037893_000001_000003_000005_000007_000015_000011_000087_000169_000495_000763_001295_002533_004213_008671_021683_012521_090071,
  1_037915_000001_000001_000003_000001_000017_000055_000007_000165_000313_000659_000049_000377_006675_015255_009881_011751_087789,
  1_037922_000001_000003_000001_000015_000003_000049_000027_000109_000145_001011_001939_003201_006141_007229_020741_059285_129365,
  1_037936_000001_000001_000005_000005_000005_000051_000117_000017_000363_000795_001343_002637_006209_001045_022515_010687_048487,
  1_037939_000001_000001_000005_000015_000001_000037_000091_000241_000245_000703_000505_003369_006163_010265_012497_046301_109523,
  1_037945_000001_000001_000007_000011_000003_000037_000067_000035_000229_000823_000193_000913_003331_004475_009271_011859_052709,
  1_037956_000001_000001_000003_000003_000007_000025_000061_000159_000081_001011_001491_001439_001031_000765_009839_061891_020969,
  1_037960_000001_000003_000003_000007_000025_000039_000073_000059_000101_000101_000225_001105_005943_005223_012585_016411_062699,
  1_037971_000001_000001_000007_000005_000025_000019_000027_000113_000465_000319_002035_002127_001319_011793_026821_044805_028217,
  1_037980_000001_000003_000005_000011_000007_000009_000081_000107_000067_000031_001503_003303_004451_011417_032681_026861_054845,
  1_038002_000001_000003_000001_000001_000003_000051_000093_000235_000093_000247_002027_001517_006797_001703_010233_045313_060771,
  1_038007_000001_000003_000003_000015_000025_000011_000083_000077_000413_000189_000119_000597_002199_012347_007935_040191_125569,
  1_038018_000001_000003_000007_000009_000011_000003_000077_000031_000089_000163_001993_003017_003973_010943_022247_045565_007261,
  1_038020_000001_000003_000007_000007_000015_000013_000007_000155_000373_000893_000607_003521_007455_013809_006145_031743_086329,
  1_038038_000001_000001_000001_000015_000025_000041_000111_000065_000011_000627_000059_002725_000995_003761_025361_045189_048355,
  1_038041_000001_000001_000007_000005_000029_000043_000091_000139_000323_000503_000679_004079_000403_001899_001425_026989_117057,
  1_038044_000001_000003_000005_000013_000001_000017_000019_000061_000205_000833_000345_001031_007995_000999_027469_015943_088011,
  1_038048_000001_000003_000001_000007_000023_000049_000123_000009_000011_000761_001163_000669_003837_015225_023393_019513_009457,
  1_038051_000001_000001_000005_000009_000009_000033_000029_000123_000277_000433_001799_001583_003133_013461_026443_015807_080173,
  1_038054_000001_000003_000007_000003_000031_000029_000077_000105_000297_000617_000491_000647_006541_005033_031841_048405_126985,
  1_038065_000001_000001_000005_000005_000031_000039_000017_000025_000003_000279_000089_003985_003333_005681_003701_036319_012585,
  1_038066_000001_000001_000007_000013_000013_000019_000093_000129_000051_000875_001083_001739_005193_006217_010033_051839_066071,
  1_038077_000001_000001_000007_000009_000015_000023_000093_000121_000507_000115_000707_003181_001521_009609_004577_054389_019167,
  1_038090_000001_000003_000003_000007_000017_000051_000019_000029_000387_000711_001105_001627_004421_015183_014149_026485_106425,
  1_038109_000001_000003_000003_000015_000025_000059_000011_000045_000259_001019_001997_003373_005083_005701_030217_044845_067559,
  1_038119_000001_000003_000003_000009_000017_000047_000005_000103_000477_000785_000235_001523_001505_008811_015255_053493_004383,
  1_038120_000001_000003_000007_000003_000007_000037_000073_000247_000397_000409_001065_000525_005665_008533_030627_019035_022937,
  1_038123_000001_000003_000003_000015_000015_000047_000123_000215_000413_000249_000055_002563_008033_008743_018659_007947_056057,
  1_038146_000001_000001_000007_000003_000011_000061_000103_000109_000313_000293_000149_000999_000901_013387_015351_052973_068385,
  1_038155_000001_000001_000001_000005_000031_000013_000057_000043_000263_000141_000335_002777_003435_004231_020623_002597_033481]

def dirRows17_1_19 : List Nat := [
  1_038160_000001_000001_000007_000013_000021_000053_000101_000075_000237_000275_001903_003501_008023_003651_019609_044417_060287,
  1_038181_000001_000001_000001_000001_000013_000043_000083_000255_000355_000567_001781_002943_001061_002701_024861_058381_060255,
  1_038188_000001_000001_000003_000009_000025_000005_000081_000085_000445_000857_000517_003687_002641_006699_019273_004481_008715,
  1_038199_000001_000001_000003_000007_000017_000039_000033_000031_000029_000269_000379_003149_004731_010387_007941_049199_018423,
  1_038203_000001_000001_000007_000015_000019_000037_000105_000157_000185_001023_001865_000053_006765_000003_022897_017019_109521,
  1_038225_000001_000003_000007_000005_000005_000007_000117_000211_000019_000149_001091_003721_000201_004455_018965_051401_067225,
  1_038226_000001_000003_000005_000011_000001_000055_000101_000041_000469_000271_001251_000949_000861_011903_014773_025675_114161,
  1_038231_000001_000001_000007_000007_000023_000013_000103_000185_000137_000575_000797_001195_005301_013307_012043_026003_031719,
  1_038244_000001_000001_000005_000007_000011_000051_000017_000071_000321_000559_001461_003571_001033_015575_007097_014703_052359,
  1_038248_000001_000001_000001_000005_000021_000009_000123_000211_000233_000081_000111_001433_007825_011771_030743_023993_048717,
  1_038259_000001_000003_000005_000015_000007_000003_000109_000033_000099_000135_000393_003463_007271_014387_030723_019079_083073,
  1_038268_000001_000003_000003_000015_000003_000051_000077_000219_000409_000011_000067_003787_005155_009259_007185_021611_032577,
  1_038271_000001_000003_000007_000001_000005_000049_000125_000085_000151_000301_000887_001765_000005_012849_011775_011319_029547,
  1_038272_000001_000001_000007_000011_000017_000015_000105_000029_000327_000637_001493_003361_001823_014709_018355_000741_057807,
  1_038278_000001_000001_000007_000007_000003_000027_000015_000113_000227_000617_001543_001719_008065_013627_023525_020511_064759,
  1_038292_000001_000001_000003_000003_000021_000047_000089_000177_000381_000711_001367_002405_000887_002351_022957_049679_005963,
  1_038296_000001_000003_000007_000009_000007_000001_000039_000071_000009_000275_000875_001385_006215_010419_025921_063427_018031,
  1_038318_000001_000001_000007_000005_000023_000057_000027_000007_000445_000111_000953_000037_002769_001967_008165_035417_036471,
  1_038326_000001_000003_000003_000011_000023_000017_000119_000113_000275_000625_001957_002795_003815_007937_011049_031939_128053,
  1_038338_000001_000003_000003_000005_000007_000035_000045_000041_000251_000491_001953_003201_000751_005705_000595_027003_077917,
  1_038347_000001_000003_000005_000003_000025_000017_000055_000137_000299_000541_000289_002225_004667_003569_013687_036193_075705,
  1_038373_000001_000001_000007_000015_000021_000009_000027_000157_000469_000441_000193_002097_004863_002147_031197_024283_102039,
  1_038378_000001_000001_000001_000011_000017_000039_000073_000037_000091_000121_001283_000367_001875_014365_028349_060993_010791,
  1_038380_000001_000003_000005_000009_000013_000063_000089_000053_000459_000347_000343_002321_005237_002497_000279_063833_010709,
  1_038388_000001_000001_000001_000015_000011_000023_000041_000079_000045_000567_001217_001669_001679_002561_016191_049041_004081,
  1_038392_000001_000003_000001_000005_000003_000009_000103_000245_000047_000561_000229_002945_006563_000797_021571_025769_012995,
  1_038397_000001_000003_000005_000007_000005_000047_000099_000055_000049_000951_000765_002095_008021_004389_020501_026047_119967,
  1_038398_000001_000001_000005_000003_000015_000047_000081_000121_000379_000527_000419_001093_000367_010939_017181_013905_049859,
  1_038401_000001_000003_000003_000005_000007_000059_000053_000255_000131_000685_001677_003757_003601_000089_006225_032705_028287,
  1_038404_000001_000003_000007_000001_000007_000055_000085_000047_000425_000793_000605_002313_000791_004247_009693_010633_082915,
  1_038422_000001_000003_000005_000013_000013_000049_000127_000213_000027_000657_000419_000055_006289_000295_004211_008899_120237,
  1_038432_000001_000001_000007_000011_000011_000007_000075_000035_000315_000125_000517_003677_002323_006897_011535_036789_020179,
  1_038469_000001_000001_000005_000009_000011_000003_000077_000043_000323_000647_000383_000485_003937_009081_027745_059149_103433,
  1_038482_000001_000003_000003_000013_000003_000047_000091_000081_000115_000625_002003_003601_000531_000113_020719_047391_111039,
  1_038493_000001_000001_000003_000013_000005_000049_000123_000189_000109_000325_000497_000923_003861_014029_022651_019857_104801,
  1_038507_000001_000001_000005_000003_000029_000023_000025_000023_000501_000371_001983_001303_002261_011865_013281_002587_075741,
  1_038518_000001_000003_000005_000013_000027_000061_000045_000011_000157_000615_000897_001529_002213_000757_030105_002011_027267,
  1_038521_000001_000003_000005_000013_000029_000031_000095_000159_000449_000307_001575_001897_002301_014023_006921_030543_031843,
  1_038527_000001_000003_000003_000005_000001_000001_000079_000147_000437_000623_001161_003407_003073_015425_004329_019651_090597,
  1_038533_000001_000001_000001_000011_000017_000007_000043_000171_000447_000841_000573_003775_005517_003629_018241_031907_051423,
  1_038534_000001_000001_000003_000007_000015_000053_000111_000203_000171_000963_001983_002017_006067_012281_003417_007431_033803,
  1_038552_000001_000003_000001_000001_000031_000049_000125_000065_000007_000579_001709_001815_002643_011537_030093_011813_065157,
  1_038561_000001_000003_000007_000015_000001_000003_000061_000021_000163_000809_001263_002577_007811_012611_006921_018529_025709,
  1_038576_000001_000001_000003_000005_000017_000043_000013_000081_000029_000905_001975_000589_005875_015683_029447_046453_127911,
  1_038581_000001_000001_000005_000003_000019_000029_000011_000067_000375_000771_000755_003939_001465_003275_001119_024695_105105,
  1_038585_000001_000001_000003_000011_000023_000037_000033_000135_000329_000733_000245_002353_002547_007823_016265_005975_037877,
  1_038594_000001_000003_000007_000013_000015_000009_000047_000181_000239_000723_001219_000409_001685_005493_014189_018107_026231,
  1_038606_000001_000001_000005_000001_000009_000001_000065_000125_000439_000591_001499_003797_005879_004231_018655_009643_042265,
  1_038613_000001_000001_000007_000007_000011_000051_000111_000047_000169_000039_000045_002211_006729_010987_022367_027257_112711,
  1_038617_000001_000003_000005_000003_000019_000061_000089_000185_000023_000793_001457_001743_003743_015063_014053_050201_109175,
  1_038634_000001_000001_000005_000013_000031_000051_000069_000135_000427_000527_001673_002393_005829_000683_001509_056617_105735,
  1_038644_000001_000001_000001_000015_000031_000051_000003_000105_000125_000593_001589_003217_007449_000525_030599_011689_014781,
  1_038651_000001_000001_000001_000011_000009_000037_000113_000045_000487_000961_000087_001461_003521_008645_019771_043817_043277,
  1_038661_000001_000001_000007_000003_000007_000011_000045_000097_000011_000593_000319_002597_000037_004157_006669_029929_017213,
  1_038665_000001_000003_000007_000003_000029_000021_000101_000093_000289_000975_001937_003423_000757_007075_012575_026801_090989,
  1_038668_000001_000001_000007_000015_000025_000049_000049_000149_000503_000365_001359_002155_007977_014955_018439_044269_088995,
  1_038674_000001_000003_000007_000013_000025_000027_000015_000067_000157_000873_000339_002143_001405_012209_030939_036109_107699,
  1_038689_000001_000003_000005_000005_000021_000033_000121_000095_000061_000159_001423_002899_003811_000263_009139_054481_107375,
  1_038695_000001_000001_000007_000007_000013_000049_000083_000053_000267_000131_000673_003945_005255_002009_021017_041749_044817,
  1_038696_000001_000003_000001_000013_000025_000057_000125_000005_000323_000653_000221_002013_007225_008719_028049_041953_014725,
  1_038707_000001_000003_000007_000007_000005_000013_000035_000161_000221_000951_000769_000717_000267_002233_023387_047411_095739,
  1_038710_000001_000003_000007_000011_000023_000047_000037_000067_000501_000159_000763_004045_005125_005667_009895_033041_101171,
  1_038716_000001_000001_000007_000001_000031_000031_000111_000183_000033_000895_001819_003593_001285_010145_003679_036615_082863,
  1_038733_000001_000003_000005_000007_000021_000059_000055_000163_000139_000855_001903_003229_003745_010289_028831_046895_012647,
  1_038736_000001_000003_000007_000009_000025_000031_000113_000177_000459_000201_000565_002089_000725_009273_026249_005987_049573,
  1_038742_000001_000001_000007_000015_000003_000037_000049_000145_000121_000803_001197_002797_000021_000833_002277_028189_093171,
  1_038751_000001_000001_000007_000007_000013_000031_000093_000153_000345_000363_001825_001481_003347_013277_026119_063153_118231,
  1_038752_000001_000003_000001_000011_000031_000009_000033_000095_000433_000595_001131_000465_001797_015453_032527_040789_037799,
  1_038775_000001_000001_000005_000011_000031_000029_000083_000033_000243_000633_001325_003843_007717_000851_029789_048827_089209,
  1_038779_000001_000001_000003_000007_000025_000031_000127_000219_000281_000051_001843_003363_005985_001697_003083_018967_117421,
  1_038792_000001_000003_000007_000009_000001_000019_000125_000199_000041_000117_000903_001131_007731_014431_024753_062841_050251,
  1_038798_000001_000003_000005_000005_000011_000037_000019_000249_000097_000059_001849_001151_002171_001217_031277_026547_086601,
  1_038819_000001_000003_000003_000007_000029_000035_000021_000007_000093_000971_001155_001847_000089_006759_029611_040793_088327,
  1_038822_000001_000003_000005_000005_000029_000023_000091_000071_000479_000943_001839_003699_002491_009603_015061_043221_020435,
  1_038839_000001_000003_000003_000007_000029_000011_000015_000083_000021_000585_000501_000161_004797_011243_014879_012519_019069,
  1_038851_000001_000001_000005_000015_000013_000037_000009_000215_000433_000925_000987_003253_008027_007013_020801_012891_036497,
  1_038854_000001_000003_000007_000001_000015_000031_000095_000085_000355_001013_001963_002943_001925_013691_015237_028943_063873,
  1_038863_000001_000003_000003_000001_000017_000021_000099_000201_000465_000819_000665_000901_002671_002457_029603_035275_028339,
  1_038865_000001_000001_000001_000009_000005_000023_000111_000107_000027_000433_001341_000091_006879_001933_025433_037435_099061,
  1_038887_000001_000003_000005_000013_000011_000055_000027_000151_000397_000591_000089_001221_005581_002701_015033_041879_071415,
  1_038896_000001_000003_000003_000005_000017_000035_000015_000119_000487_000903_000875_003391_007731_012181_027823_032561_059133,
  1_038901_000001_000001_000005_000007_000015_000033_000067_000053_000307_000947_000857_002713_000803_000765_004175_015513_023985,
  1_038912_000001_000003_000001_000015_000023_000011_000015_000101_000467_000429_000153_003205_005627_007555_022515_012721_007905,
  1_038918_000001_000001_000003_000007_000019_000061_000055_000187_000413_000049_001031_003415_003903_006933_020017_050429_116407,
  1_038929_000001_000003_000001_000013_000013_000015_000033_000001_000403_000441_001969_000775_002209_015061_015657_028819_062705,
  1_038941_000001_000001_000005_000013_000013_000047_000067_000097_000087_000677_001639_003281_001395_008499_018449_049935_025775,
  1_038948_000001_000003_000003_000013_000007_000013_000077_000045_000405_000881_000293_002263_006517_015415_025809_005681_031327,
  1_038965_000001_000003_000007_000005_000005_000051_000063_000171_000401_000671_001631_001735_007361_008741_031933_044761_012209,
  1_038969_000001_000001_000007_000003_000013_000003_000039_000223_000105_000781_000241_002895_005165_012135_005683_063009_058399,
  1_038977_000001_000001_000005_000011_000029_000011_000037_000001_000445_000157_000219_002269_003025_005721_024539_041879_128445,
  1_038987_000001_000003_000007_000015_000023_000021_000125_000105_000141_000101_001981_003765_005349_013781_010055_007069_077721,
  1_038992_000001_000001_000007_000009_000003_000037_000111_000095_000033_000053_001021_001629_006945_004657_019977_036715_101401,
  1_038995_000001_000003_000003_000001_000009_000005_000065_000077_000459_000471_001045_002351_002787_013001_016211_022585_116205,
  1_039001_000001_000001_000007_000009_000025_000041_000021_000187_000471_000997_000583_002243_006537_011837_021089_051051_098517,
  1_039004_000001_000001_000007_000005_000013_000015_000081_000039_000223_000935_000951_000005_004315_011789_018365_049647_092461,
  1_039011_000001_000003_000003_000005_000011_000015_000097_000245_000043_000819_001415_003287_002051_015879_021727_054467_053875,
  1_039018_000001_000003_000001_000011_000007_000047_000125_000155_000301_000469_000805_003789_006967_012117_030369_055183_012671,
  1_039025_000001_000001_000003_000013_000017_000025_000045_000199_000069_001015_000581_003891_007743_009273_007639_059055_093923,
  1_039031_000001_000001_000005_000011_000009_000047_000039_000251_000489_000047_000083_002147_000943_001959_021361_005325_106079,
  1_039032_000001_000003_000005_000013_000027_000059_000035_000001_000155_000367_000165_002665_003021_001127_028585_045347_066763]

def dirRows17_1_20 : List Nat := [
  1_039044_000001_000003_000001_000005_000031_000031_000015_000125_000485_000581_001987_002293_004573_011431_020773_058661_079869,
  1_039056_000001_000003_000005_000015_000031_000011_000109_000229_000011_000831_001545_000919_006125_009337_004169_058041_067577,
  1_039065_000001_000001_000001_000003_000001_000043_000013_000089_000089_000863_001607_001897_004831_005239_024503_051853_126983,
  1_039066_000001_000001_000005_000011_000011_000037_000011_000253_000495_000083_000941_003665_005187_013679_011811_029563_080571,
  1_039084_000001_000003_000007_000015_000003_000045_000045_000157_000477_000321_001401_001133_000271_012455_031543_018223_116701,
  1_039095_000001_000001_000005_000003_000007_000005_000017_000127_000195_000583_000715_003975_006865_007617_006749_015687_042375,
  1_039099_000001_000001_000001_000007_000005_000007_000021_000163_000303_000045_001435_001345_002489_015333_018459_060837_104339,
  1_039101_000001_000003_000001_000001_000007_000023_000039_000093_000347_000947_000345_001713_006383_015411_010849_032559_126431,
  1_039102_000001_000003_000001_000005_000019_000041_000119_000213_000003_000991_001745_003989_000155_007761_028179_059805_106759,
  1_039104_000001_000001_000007_000005_000025_000011_000105_000089_000505_000711_001213_002831_008087_008855_031171_049749_000921,
  1_039109_000001_000001_000005_000005_000023_000061_000049_000101_000209_000805_000123_000017_000805_009033_025753_033261_033753,
  1_039114_000001_000001_000003_000005_000005_000017_000093_000223_000179_000307_000869_001851_004313_000477_012925_021365_103999,
  1_039121_000001_000001_000007_000013_000021_000023_000105_000053_000393_000939_000291_002407_004815_004961_030305_008613_062599,
  1_039122_000001_000001_000001_000011_000009_000055_000055_000135_000411_000225_000205_003357_004553_010139_017649_051209_094037,
  1_039127_000001_000003_000005_000015_000017_000017_000119_000015_000121_000581_000169_002495_003673_007173_013099_007683_053397,
  1_039150_000001_000003_000001_000011_000029_000029_000119_000255_000447_000085_000845_001015_002793_002471_012639_032155_099193,
  1_039172_000001_000003_000003_000003_000009_000033_000077_000251_000425_001007_001003_002697_004989_007799_026581_015963_050443,
  1_039181_000001_000003_000001_000005_000013_000047_000013_000203_000473_000529_000147_002061_000343_004029_014615_051355_027863,
  1_039184_000001_000001_000003_000015_000019_000063_000039_000025_000241_000487_000461_003021_003545_004537_008991_017689_077131,
  1_039193_000001_000003_000005_000005_000007_000001_000061_000089_000495_000943_001061_000405_000449_012785_025151_024497_065709,
  1_039199_000001_000001_000005_000003_000007_000043_000051_000055_000193_000615_000037_001377_002541_003861_029447_032269_106335,
  1_039200_000001_000001_000005_000011_000021_000055_000103_000043_000421_000673_000175_000979_005175_001301_008617_055875_111095,
  1_039206_000001_000003_000005_000013_000029_000031_000033_000241_000129_000473_000201_002015_000447_000099_023781_033517_107851,
  1_039209_000001_000003_000005_000003_000013_000027_000125_000205_000287_000957_001609_002907_005481_014239_019719_022459_075365,
  1_039235_000001_000003_000003_000005_000027_000023_000053_000039_000329_000381_000745_000517_007853_005333_002773_029119_007049,
  1_039238_000001_000003_000005_000015_000029_000011_000089_000003_000503_000755_000485_002669_006737_016241_007345_050991_107291,
  1_039242_000001_000001_000007_000003_000017_000045_000011_000003_000157_000715_000577_001309_003323_009401_010573_055135_100067,
  1_039244_000001_000001_000005_000009_000019_000021_000049_000103_000349_000503_001447_000675_004273_007673_027507_057697_080875,
  1_039280_000001_000001_000005_000001_000009_000053_000019_000099_000225_000915_000431_000781_003291_004383_026505_050339_099799,
  1_039290_000001_000003_000001_000005_000007_000037_000087_000201_000481_000991_001553_001867_007893_013147_018647_010373_051951,
  1_039292_000001_000001_000003_000013_000017_000037_000019_000199_000253_000901_000759_003545_003565_010461_011867_057605_075555,
  1_039296_000001_000001_000001_000005_000015_000023_000115_000069_000363_000673_000201_002451_003197_010059_001667_047145_000089,
  1_039305_000001_000001_000007_000013_000019_000031_000063_000035_000093_000939_001057_003221_000951_003575_009659_007005_002087,
  1_039308_000001_000001_000007_000015_000015_000021_000079_000007_000023_000595_001123_001909_006863_007383_028067_030113_107497,
  1_039311_000001_000003_000005_000007_000011_000047_000041_000177_000163_000855_001853_003837_006995_009727_027285_062667_077531,
  1_039326_000001_000003_000007_000003_000003_000029_000099_000163_000095_000893_001049_002001_002961_000601_004613_059745_061203,
  1_039329_000001_000003_000005_000001_000027_000005_000005_000047_000119_000631_001171_003467_002115_008581_024863_064193_052093,
  1_039330_000001_000001_000001_000005_000009_000051_000049_000251_000097_000177_000311_000993_001103_007875_025273_051587_009081,
  1_039336_000001_000003_000007_000005_000031_000021_000043_000137_000143_000779_000691_002331_005073_005409_013335_000999_127765,
  1_039339_000001_000001_000007_000001_000031_000033_000027_000193_000175_000755_001559_000659_005663_010491_029209_050979_116683,
  1_039353_000001_000003_000001_000007_000023_000049_000001_000039_000117_000045_001767_003503_004901_005699_023613_044195_017867,
  1_039359_000001_000003_000007_000013_000003_000005_000105_000089_000343_000627_001117_003419_002081_005747_007919_044329_125133,
  1_039374_000001_000003_000001_000009_000013_000033_000053_000203_000017_000927_000127_002195_000415_011301_015115_054467_128777,
  1_039391_000001_000003_000007_000001_000009_000041_000015_000089_000403_000333_000057_001159_001325_002335_010609_020485_110317,
  1_039392_000001_000003_000003_000005_000003_000061_000025_000155_000477_000907_000359_000359_005119_008157_029945_038955_106485,
  1_039402_000001_000001_000007_000005_000019_000047_000091_000089_000367_000703_000761_000431_006813_002983_029739_052453_125935,
  1_039409_000001_000001_000001_000007_000007_000061_000127_000239_000277_000649_001111_002319_001737_005071_013469_052119_048899,
  1_039410_000001_000003_000005_000015_000007_000017_000021_000209_000265_000895_000719_000263_006871_005835_028483_049859_067619,
  1_039415_000001_000003_000003_000015_000003_000007_000113_000109_000333_000545_000597_001193_007593_003961_025169_064673_047839,
  1_039419_000001_000001_000001_000003_000015_000045_000055_000041_000317_000719_001587_002953_002441_001127_009183_021637_069075,
  1_039431_000001_000003_000001_000009_000025_000057_000059_000029_000089_000833_000379_001085_000763_014747_030797_024089_083367,
  1_039432_000001_000001_000005_000013_000029_000003_000117_000239_000453_000595_000243_003103_006047_000631_022739_041669_011683,
  1_039438_000001_000001_000003_000001_000009_000053_000081_000021_000067_000735_000827_003519_007991_016249_004183_061295_004531,
  1_039443_000001_000003_000005_000003_000001_000057_000047_000099_000091_000071_001421_002949_005951_015439_025239_026453_050199,
  1_039445_000001_000001_000003_000015_000021_000003_000093_000021_000041_000809_000855_000727_007797_006957_015835_027175_060617,
  1_039449_000001_000001_000001_000013_000001_000003_000083_000135_000197_000171_001459_002841_005021_006961_030675_038295_039555,
  1_039461_000001_000001_000007_000005_000007_000049_000083_000083_000117_000073_000639_002717_000651_003253_031635_014427_116509,
  1_039462_000001_000003_000001_000003_000023_000063_000015_000023_000433_000539_000903_002655_001787_012901_012013_041315_128217,
  1_039485_000001_000003_000001_000007_000005_000019_000003_000137_000493_000681_000775_003725_004855_010817_025277_003631_060779,
  1_039508_000001_000003_000003_000005_000001_000007_000067_000039_000309_000077_001679_002853_003803_002065_007461_001555_088219,
  1_039515_000001_000001_000003_000005_000003_000047_000017_000193_000429_000789_001525_000969_007905_006523_010149_064689_040037,
  1_039522_000001_000003_000005_000007_000021_000017_000065_000061_000255_000517_001765_002603_004929_011073_007871_029313_084739,
  1_039533_000001_000001_000005_000007_000013_000055_000111_000063_000499_000009_001715_000957_006951_015839_013531_045483_017923,
  1_039541_000001_000001_000001_000001_000027_000007_000013_000135_000027_000259_001735_003847_007931_014777_015249_062367_045773,
  1_039542_000001_000001_000005_000003_000005_000007_000099_000171_000491_001007_000195_002223_002657_013557_006549_047125_025117,
  1_039557_000001_000001_000001_000009_000013_000021_000059_000205_000205_000951_001707_003387_002901_005463_013403_001917_090591,
  1_039570_000001_000003_000003_000005_000021_000037_000071_000091_000297_000885_001415_000355_002877_009261_006485_045855_090081,
  1_039575_000001_000001_000005_000009_000023_000051_000107_000075_000093_001015_000439_003589_003307_000337_017247_042285_085417,
  1_039576_000001_000001_000007_000015_000029_000033_000051_000023_000269_000035_001241_001137_000729_014531_014603_047547_017151,
  1_039591_000001_000003_000003_000001_000025_000021_000051_000229_000055_000561_000653_003289_007629_015445_021115_035941_113669,
  1_039597_000001_000001_000005_000015_000001_000033_000119_000171_000075_000621_002025_003235_001895_008279_013205_061085_105401,
  1_039603_000001_000003_000001_000007_000025_000033_000073_000025_000001_000531_000603_000077_004939_005957_028065_059467_066659,
  1_039610_000001_000001_000007_000003_000017_000061_000103_000047_000289_000039_000917_002515_006607_001129_023361_046321_081929,
  1_039612_000001_000001_000007_000005_000029_000053_000005_000191_000151_000019_000895_001215_005401_009861_024751_015481_034179,
  1_039617_000001_000003_000007_000009_000005_000003_000029_000205_000173_000547_000727_000947_005619_004181_030621_005553_037587,
  1_039620_000001_000001_000003_000009_000013_000059_000095_000145_000287_000849_001483_003375_003531_006585_029565_004243_088333,
  1_039624_000001_000001_000007_000011_000021_000023_000059_000223_000071_000743_000443_000697_007789_010371_028565_045127_037967,
  1_039627_000001_000003_000005_000011_000015_000025_000079_000071_000021_000817_000751_000189_001769_003835_021465_017991_102043,
  1_039635_000001_000001_000007_000011_000003_000019_000025_000005_000261_000181_000049_000261_007715_002195_019771_043463_036533,
  1_039641_000001_000001_000007_000013_000021_000021_000015_000235_000191_000197_001305_001351_004511_000625_006613_037053_059491,
  1_039666_000001_000001_000001_000013_000015_000013_000093_000239_000251_001009_000527_001347_004173_014753_027389_020397_013101,
  1_039668_000001_000001_000003_000001_000015_000011_000127_000141_000277_000775_001419_002353_006929_002265_007253_019807_074853,
  1_039686_000001_000003_000003_000015_000015_000049_000009_000183_000407_000377_000675_000871_000347_003417_004409_007805_040507,
  1_039692_000001_000003_000005_000003_000023_000011_000081_000053_000343_000681_001777_003411_000757_010875_003581_056105_079907,
  1_039700_000001_000003_000005_000001_000025_000009_000109_000055_000283_000311_001607_002479_005675_008819_010853_038719_044471,
  1_039709_000001_000001_000007_000007_000009_000053_000033_000195_000503_000167_000993_003203_003885_001921_001039_025785_047411,
  1_039726_000001_000003_000003_000003_000031_000003_000011_000085_000475_000743_001825_002649_002373_012177_021481_035579_085803,
  1_039728_000001_000003_000007_000003_000023_000045_000045_000207_000369_000773_001579_000783_002491_007441_021203_057091_107413,
  1_039737_000001_000001_000001_000005_000019_000007_000097_000213_000431_000533_000637_001767_004945_004693_000977_064781_111811,
  1_039738_000001_000003_000007_000007_000001_000055_000101_000251_000153_000095_001043_003219_003499_006297_011571_009131_061899,
  1_039755_000001_000003_000005_000005_000025_000053_000121_000255_000069_000661_000799_003559_002029_011701_014151_037897_018333,
  1_039757_000001_000001_000001_000009_000021_000019_000097_000021_000321_000957_001115_000251_005131_008465_024215_034423_012747,
  1_039758_000001_000003_000005_000007_000017_000019_000099_000135_000429_000625_001401_001025_004193_002911_007349_034135_009341,
  1_039765_000001_000003_000005_000001_000005_000063_000097_000121_000307_000547_001967_000641_000487_004627_030899_062049_094343,
  1_039766_000001_000003_000005_000013_000001_000001_000109_000023_000267_000843_000271_002277_000855_004245_002177_033633_113835,
  1_039769_000001_000001_000003_000007_000003_000027_000091_000079_000027_000855_002025_000443_004797_009005_027533_020497_100431,
  1_039779_000001_000003_000003_000005_000023_000007_000073_000035_000395_000649_000881_002923_004065_000853_010829_019461_082383,
  1_039785_000001_000003_000001_000005_000025_000013_000085_000093_000369_000259_000393_003233_000799_012409_026631_064291_110133,
  1_039794_000001_000003_000005_000005_000031_000035_000025_000239_000455_000893_000573_001449_003359_012077_017149_012921_066931,
  1_039796_000001_000001_000007_000003_000025_000039_000067_000087_000215_000325_000627_003609_004417_010021_012047_064593_116525]

def dirRows17_1_21 : List Nat := [
  1_039809_000001_000001_000005_000005_000023_000051_000125_000247_000083_000419_000655_000635_007053_004907_012887_018083_049481,
  1_039815_000001_000001_000007_000011_000005_000025_000065_000139_000235_000331_001885_001851_001061_013265_014371_023067_056757,
  1_039829_000001_000001_000007_000009_000011_000015_000029_000255_000509_000869_000561_002201_000487_002989_014943_065373_035789,
  1_039834_000001_000001_000001_000003_000003_000033_000023_000121_000129_000351_001481_000065_000321_015927_023849_002813_098547,
  1_039839_000001_000001_000001_000003_000023_000055_000121_000035_000339_000087_001147_000401_001477_010617_015943_020535_089321,
  1_039850_000001_000003_000005_000015_000025_000059_000111_000185_000305_000047_000523_002801_005485_000625_030191_058153_009019,
  1_039857_000001_000001_000007_000013_000015_000051_000105_000055_000077_000419_001011_001117_002705_015093_015629_051429_058487,
  1_039881_000001_000003_000007_000005_000015_000027_000019_000007_000401_000295_001841_001167_002133_001967_006941_013571_029467,
  1_039905_000001_000001_000005_000015_000025_000043_000023_000253_000173_000927_001299_002779_005489_016135_001503_051097_105751,
  1_039912_000001_000003_000003_000005_000009_000013_000005_000013_000411_000639_001323_001495_002539_015087_021489_049653_076229,
  1_039938_000001_000001_000001_000011_000007_000051_000047_000099_000247_000541_001355_002373_004121_013621_007715_016763_127985,
  1_039940_000001_000001_000003_000009_000007_000001_000085_000045_000269_000769_000581_002229_007143_005203_022483_018511_030997,
  1_039944_000001_000003_000005_000007_000021_000041_000097_000225_000109_000195_001197_003417_007613_013225_029157_018969_082045,
  1_039955_000001_000003_000003_000003_000017_000041_000013_000077_000129_000679_001659_001299_004809_008537_019081_001281_070793,
  1_039961_000001_000001_000005_000005_000005_000049_000005_000015_000313_000941_000775_000259_006579_007745_020531_051669_035257,
  1_039977_000001_000001_000005_000005_000017_000035_000013_000235_000169_000699_001365_003907_004231_010965_007737_006735_004253,
  1_039980_000001_000001_000005_000003_000029_000003_000001_000197_000133_000935_000571_003977_002467_002029_012803_064559_006427,
  1_039986_000001_000003_000005_000005_000027_000005_000069_000057_000439_000925_001695_000827_004685_010971_003011_056821_092187,
  1_039988_000001_000001_000001_000003_000009_000045_000077_000179_000173_001023_000907_001999_003913_006973_026987_030237_062987,
  1_039991_000001_000003_000007_000003_000005_000021_000017_000097_000433_000277_001515_002923_008025_014119_011243_003983_033943,
  1_039998_000001_000001_000005_000007_000015_000013_000119_000169_000021_000927_000439_000361_002655_002237_019775_004157_084245,
  1_040003_000001_000003_000005_000005_000031_000041_000117_000159_000421_000505_001617_003855_007835_008105_029525_056735_082335,
  1_040005_000001_000001_000005_000005_000001_000033_000051_000003_000079_000933_000389_000493_005969_012493_026723_061159_116951,
  1_040023_000001_000003_000007_000013_000017_000023_000075_000013_000355_000111_000675_003191_003931_005651_017495_004595_049869,
  1_040024_000001_000001_000007_000007_000015_000021_000035_000125_000089_000903_000697_003493_004043_006631_004793_045655_086969,
  1_040045_000001_000003_000001_000015_000013_000043_000113_000213_000451_000473_000191_002913_006391_001321_029615_024791_026979,
  1_040046_000001_000003_000003_000013_000017_000025_000009_000163_000163_000161_001647_003949_001343_012881_010931_031365_070013,
  1_040058_000001_000003_000007_000003_000003_000019_000001_000121_000387_000543_001655_001797_006727_002951_021925_021595_073207,
  1_040088_000001_000001_000005_000009_000007_000019_000091_000009_000083_000893_001393_000163_002219_007763_032395_029569_098645,
  1_040091_000001_000001_000005_000007_000013_000063_000091_000115_000247_000387_000087_003239_007561_000297_032615_048817_041761,
  1_040098_000001_000003_000005_000003_000021_000023_000027_000141_000257_000377_001745_000443_000897_009033_001715_009225_110181,
  1_040109_000001_000001_000007_000009_000023_000049_000125_000131_000225_000253_000139_002057_003273_004049_006861_004463_011659,
  1_040112_000001_000001_000005_000011_000005_000041_000097_000213_000133_000481_002009_002039_001533_010765_022427_023297_080661,
  1_040124_000001_000001_000005_000015_000009_000011_000077_000129_000421_000219_001623_000703_001611_013377_009859_042869_101943,
  1_040130_000001_000003_000003_000003_000017_000063_000055_000029_000317_000973_001159_000011_001733_014551_025911_039151_045861,
  1_040153_000001_000003_000007_000011_000029_000063_000107_000193_000263_000799_001171_000543_000553_012591_021965_008165_064347,
  1_040166_000001_000001_000007_000015_000023_000049_000065_000065_000401_000897_000681_001113_006737_009157_001557_055891_129175,
  1_040175_000001_000003_000003_000001_000015_000023_000107_000123_000313_000633_001009_002615_001155_011701_021945_007939_028111,
  1_040183_000001_000003_000001_000011_000015_000011_000047_000137_000299_000393_000877_001989_005903_006505_009599_004129_023073,
  1_040184_000001_000001_000007_000015_000009_000049_000067_000015_000079_000125_000505_000017_008071_012957_013855_023611_066465,
  1_040207_000001_000001_000005_000013_000031_000049_000001_000161_000121_000145_000711_001347_005297_011309_009871_043075_095541,
  1_040215_000001_000003_000003_000013_000019_000007_000055_000199_000469_000471_001269_003779_006251_003513_001775_019501_094055,
  1_040225_000001_000003_000003_000013_000009_000041_000109_000211_000197_000227_001211_003327_001247_012253_004493_031507_038677,
  1_040235_000001_000001_000007_000003_000011_000045_000011_000103_000325_000849_001817_003971_001059_009047_027237_032211_121165,
  1_040240_000001_000003_000003_000003_000013_000043_000007_000035_000293_000003_000679_001441_005189_007585_032009_006151_089803,
  1_040255_000001_000001_000007_000009_000029_000041_000127_000255_000363_000913_002027_003891_005187_010233_008871_048085_125609,
  1_040263_000001_000003_000001_000005_000021_000023_000059_000145_000171_000775_000535_003803_006981_015901_020255_063199_092905,
  1_040270_000001_000003_000005_000009_000007_000063_000053_000007_000145_000547_001753_003351_001273_008175_024103_042133_087459,
  1_040277_000001_000003_000007_000007_000025_000033_000005_000217_000469_000473_001573_002525_007345_005261_007023_050893_124129,
  1_040282_000001_000003_000005_000013_000005_000051_000023_000061_000429_000775_000519_002671_001979_009005_021617_033611_120487,
  1_040297_000001_000003_000003_000015_000023_000001_000073_000187_000047_000369_000943_000099_002529_005569_013649_051481_128949,
  1_040306_000001_000003_000001_000005_000025_000055_000035_000191_000327_000845_001353_000261_006297_006067_022241_032381_017749,
  1_040315_000001_000001_000005_000015_000031_000005_000029_000129_000015_000047_000739_000755_007595_014743_014705_034347_011805,
  1_040333_000001_000003_000001_000003_000015_000049_000119_000047_000185_000063_002003_002847_005393_000855_007699_029521_067011,
  1_040334_000001_000003_000007_000015_000011_000041_000037_000149_000173_001015_000029_001805_001269_016199_032337_011023_060065,
  1_040336_000001_000001_000001_000007_000031_000019_000065_000081_000255_000875_001379_002347_001873_014427_029523_038413_065583,
  1_040342_000001_000001_000001_000015_000013_000059_000003_000219_000127_000479_001029_003385_000563_011825_010081_017423_026431,
  1_040345_000001_000001_000001_000001_000025_000027_000079_000087_000489_000281_000457_003527_005117_004705_021167_046211_090383,
  1_040348_000001_000003_000007_000013_000007_000005_000067_000111_000053_000439_001483_003639_007781_009471_010957_060711_064957,
  1_040355_000001_000003_000007_000009_000007_000007_000041_000137_000159_000245_000551_004007_001277_004743_004863_048689_123289,
  1_040372_000001_000003_000007_000009_000015_000049_000055_000077_000041_000475_001563_003569_005993_000301_014831_044095_022641,
  1_040381_000001_000001_000001_000001_000015_000033_000039_000135_000081_000533_000869_000305_001125_006399_014321_037217_121081,
  1_040390_000001_000001_000007_000015_000021_000059_000043_000007_000225_000001_000115_001531_002931_002593_015935_061973_106899,
  1_040407_000001_000001_000001_000001_000013_000013_000099_000191_000437_000367_000641_001933_005807_011677_013557_046475_034875,
  1_040435_000001_000003_000007_000009_000021_000007_000119_000209_000031_000919_000901_001229_005823_011439_018151_018991_114743,
  1_040437_000001_000003_000003_000003_000019_000037_000109_000053_000411_000617_001841_002769_001271_005719_022359_001199_072405,
  1_040441_000001_000001_000001_000005_000029_000003_000051_000059_000141_000897_001907_003799_001463_005661_000181_050565_095085,
  1_040444_000001_000001_000001_000007_000001_000035_000077_000225_000341_000587_000137_000035_002177_015177_012869_035013_039471,
  1_040458_000001_000001_000003_000013_000015_000063_000045_000033_000337_000001_001133_000263_004985_011591_001085_031197_067897,
  1_040460_000001_000001_000005_000013_000023_000011_000123_000021_000185_000639_000145_003865_002999_006261_023247_023055_032755,
  1_040481_000001_000001_000005_000009_000019_000021_000047_000133_000281_000431_001661_003719_003637_000973_009727_052627_060035,
  1_040484_000001_000001_000003_000005_000003_000019_000019_000089_000063_000549_000551_003357_005665_004781_022437_001149_010825,
  1_040487_000001_000003_000005_000015_000003_000025_000081_000193_000011_000711_001481_001767_001159_004967_016915_003387_026245,
  1_040493_000001_000001_000001_000003_000029_000039_000023_000131_000473_000107_000765_002249_006087_009145_020751_021085_042989,
  1_040494_000001_000003_000001_000009_000007_000039_000013_000199_000475_000333_000269_001041_005927_014039_019081_009045_119645,
  1_040501_000001_000001_000005_000013_000011_000061_000099_000071_000151_000175_001327_003397_005063_010683_007895_062255_085749,
  1_040502_000001_000003_000007_000009_000001_000057_000021_000217_000423_000467_001435_002887_001567_008819_019961_036507_110309,
  1_040525_000001_000003_000003_000011_000011_000035_000077_000127_000153_000357_000865_001943_001947_010995_013617_044347_026851,
  1_040550_000001_000003_000001_000011_000009_000043_000031_000081_000123_000813_000995_000169_006593_013621_032195_051125_053509,
  1_040553_000001_000001_000005_000005_000027_000029_000077_000035_000093_000545_000377_002345_006475_015729_015103_049591_101121,
  1_040559_000001_000001_000005_000013_000001_000017_000097_000187_000129_000173_000641_002937_003277_015087_028111_046905_112367,
  1_040562_000001_000003_000007_000007_000001_000027_000075_000043_000305_000431_000571_001327_007419_003093_002691_023417_011975,
  1_040573_000001_000001_000005_000015_000017_000003_000091_000057_000417_000087_001891_001973_005765_005521_021931_060011_020883,
  1_040574_000001_000003_000001_000003_000027_000013_000105_000153_000495_000371_000453_001295_005675_006377_008971_040505_041149,
  1_040578_000001_000001_000001_000015_000001_000017_000105_000177_000041_000455_000611_003585_002307_002603_020985_005581_014033,
  1_040583_000001_000003_000003_000009_000007_000041_000033_000145_000307_000293_001321_002151_003265_014845_015687_038715_008041,
  1_040584_000001_000003_000003_000003_000005_000047_000127_000253_000129_000337_001467_000005_002743_001921_026979_011737_041479,
  1_040587_000001_000001_000001_000005_000015_000035_000037_000009_000005_000405_001041_001903_003655_014315_009441_020577_050715,
  1_040597_000001_000001_000005_000015_000007_000005_000053_000061_000409_000353_000087_001805_004523_011417_024105_021451_056387,
  1_040620_000001_000003_000003_000005_000005_000009_000025_000249_000511_000795_000559_002695_003071_003971_029421_046593_096563,
  1_040623_000001_000001_000003_000001_000003_000039_000061_000085_000399_000105_001253_003787_003065_010553_008195_005637_129579,
  1_040631_000001_000003_000003_000007_000023_000023_000023_000197_000263_000687_000943_001977_005767_015373_017995_024509_081293,
  1_040643_000001_000003_000001_000011_000015_000037_000015_000067_000207_000985_000895_000509_003435_011563_002055_019253_042649,
  1_040660_000001_000001_000007_000003_000001_000051_000059_000133_000241_000569_001575_003633_002243_011939_005501_011249_086013,
  1_040667_000001_000001_000007_000013_000025_000059_000097_000191_000385_000179_001195_001537_001837_011953_014231_037025_049803,
  1_040676_000001_000003_000005_000005_000013_000049_000019_000171_000503_000433_001633_000553_002759_004379_018313_062437_037453,
  1_040693_000001_000003_000003_000015_000029_000049_000107_000239_000021_000913_001095_000989_004749_010657_027169_015913_001573,
  1_040697_000001_000001_000001_000001_000003_000003_000053_000241_000287_000149_000557_002665_002027_000449_029231_023025_102521,
  1_040708_000001_000003_000005_000007_000023_000021_000009_000001_000011_000837_001337_002815_007883_016053_010031_043405_005037,
  1_040718_000001_000003_000007_000001_000023_000053_000113_000125_000337_000491_001125_003083_004941_000951_015805_001571_079779]

def dirRows17_1_22 : List Nat := [
  1_040726_000001_000003_000007_000013_000001_000003_000095_000105_000431_000723_001771_003773_000177_002045_024719_057727_079005,
  1_040735_000001_000003_000001_000001_000007_000017_000107_000171_000213_000437_000409_002015_007543_012693_023597_044477_072543,
  1_040739_000001_000003_000005_000009_000007_000021_000027_000167_000473_000901_001245_003737_003485_014593_007619_018753_014209,
  1_040748_000001_000001_000001_000003_000025_000037_000051_000021_000363_000073_000711_003749_005147_008495_030151_014275_128217,
  1_040760_000001_000003_000001_000013_000017_000035_000069_000015_000293_000331_000301_000691_007315_006495_000315_062909_105047,
  1_040763_000001_000003_000005_000003_000025_000023_000105_000111_000213_000887_001701_002085_005931_009217_004009_002321_103631,
  1_040773_000001_000001_000007_000015_000017_000057_000059_000249_000267_000941_000777_002509_006587_012033_024969_031563_129049,
  1_040774_000001_000001_000001_000005_000031_000023_000031_000217_000509_000973_000659_000673_007759_003865_021221_004319_117411,
  1_040786_000001_000001_000003_000007_000013_000013_000103_000179_000107_000233_000753_003121_000835_013595_009271_031421_045275,
  1_040791_000001_000003_000005_000013_000023_000061_000125_000189_000283_000083_001087_000755_003697_014845_027901_016389_082993,
  1_040798_000001_000003_000001_000003_000001_000055_000025_000139_000435_000681_001913_000975_003109_006699_012943_050865_071811,
  1_040801_000001_000003_000001_000005_000015_000061_000017_000219_000029_000805_001881_003761_003535_000473_015629_026301_051085,
  1_040808_000001_000003_000001_000001_000007_000043_000087_000093_000355_000247_000641_002851_004565_009293_006025_001945_112549,
  1_040811_000001_000003_000007_000005_000019_000055_000069_000227_000107_000443_001587_002457_002873_000953_027529_057527_054145,
  1_040813_000001_000001_000005_000009_000001_000033_000031_000241_000339_000791_000399_003435_001711_010815_032657_059875_031291,
  1_040825_000001_000001_000001_000007_000025_000059_000087_000115_000435_000047_001907_000193_006069_010933_009877_046443_003451,
  1_040831_000001_000003_000003_000015_000025_000033_000019_000121_000133_000253_001227_000075_002839_003341_030727_052451_044883,
  1_040835_000001_000001_000007_000011_000005_000047_000097_000255_000235_000565_001701_000529_000839_015473_024471_005749_073135,
  1_040856_000001_000001_000003_000007_000021_000015_000031_000081_000389_000957_000603_003879_002875_011987_024625_053667_077775,
  1_040861_000001_000001_000005_000011_000029_000029_000031_000233_000107_000541_000561_002533_001421_013587_006943_045635_071315,
  1_040880_000001_000003_000001_000009_000025_000019_000033_000053_000509_000485_001637_002877_005927_016059_000195_017279_127025,
  1_040889_000001_000001_000001_000003_000009_000023_000097_000101_000337_000043_001979_001139_003693_002601_008225_053037_063709,
  1_040912_000001_000001_000007_000007_000017_000025_000121_000253_000063_000105_000527_001397_000121_009665_029151_010795_079077,
  1_040918_000001_000003_000003_000001_000027_000033_000123_000069_000209_000025_001677_001569_004441_007817_005165_029517_117165,
  1_040924_000001_000001_000005_000015_000003_000059_000013_000025_000359_000071_000179_003925_006899_006007_009121_036297_088541,
  1_040927_000001_000001_000003_000011_000023_000017_000055_000133_000027_000277_001055_001057_000807_001221_001665_064129_102395,
  1_040928_000001_000003_000001_000015_000013_000015_000105_000141_000329_000073_000609_001663_003277_001767_006371_034325_109563,
  1_040938_000001_000001_000005_000001_000017_000021_000037_000081_000187_000403_000291_001495_005071_014289_029075_044089_095001,
  1_040952_000001_000003_000003_000003_000015_000033_000049_000155_000041_000853_000015_003571_001433_008469_018711_059007_098703,
  1_040957_000001_000003_000001_000013_000017_000047_000061_000151_000127_000087_000207_003157_005141_014745_032567_018401_007497,
  1_040961_000001_000003_000005_000001_000019_000025_000049_000147_000137_000603_001223_003195_005965_011335_020343_010109_063975,
  1_040968_000001_000001_000007_000013_000029_000059_000001_000033_000157_000765_000961_000641_007303_003279_020287_037553_114573,
  1_040974_000001_000003_000005_000001_000011_000063_000063_000041_000015_000717_001037_000227_007875_008681_026943_011761_028005,
  1_040986_000001_000003_000001_000003_000019_000005_000067_000169_000209_000293_000343_002033_007669_001077_015513_054475_015459,
  1_040992_000001_000001_000003_000003_000017_000047_000049_000187_000341_000767_001463_000301_002083_009265_012313_014763_126627,
  1_041001_000001_000003_000005_000013_000011_000015_000045_000237_000445_000055_000319_002989_005043_001053_022809_023111_007617,
  1_041004_000001_000001_000007_000009_000007_000015_000041_000185_000511_000701_001279_001995_007829_002947_003431_045799_001709,
  1_041022_000001_000003_000007_000015_000005_000015_000085_000029_000487_000811_001653_000483_001193_011331_021815_057215_008373,
  1_041033_000001_000003_000001_000015_000027_000019_000111_000161_000019_000373_000419_001547_002415_010705_017283_056663_073625,
  1_041036_000001_000001_000003_000011_000027_000007_000075_000057_000411_000035_000685_001249_005227_007313_003167_030537_040655,
  1_041039_000001_000003_000001_000009_000007_000037_000009_000209_000353_000319_000843_000657_002069_006523_000611_016291_107121,
  1_041044_000001_000001_000005_000011_000011_000051_000025_000171_000315_000063_000207_002279_002379_003583_031927_062451_109911,
  1_041064_000001_000001_000007_000011_000015_000041_000019_000175_000103_000605_001889_003161_001217_003259_029655_011715_035551,
  1_041078_000001_000003_000005_000013_000023_000011_000121_000147_000179_000397_000659_003753_002355_001093_025863_039751_112381,
  1_041091_000001_000003_000005_000007_000001_000023_000037_000117_000007_000361_000991_000661_004427_015333_005307_055171_096959,
  1_041103_000001_000003_000001_000005_000017_000009_000077_000147_000289_000079_000295_001271_007809_006387_031785_026489_009335,
  1_041108_000001_000001_000001_000007_000017_000033_000063_000147_000017_000515_001349_001907_007703_005511_027773_054025_030019,
  1_041112_000001_000003_000005_000003_000027_000057_000075_000129_000219_000533_000207_003569_005799_006943_012271_053115_120389,
  1_041127_000001_000001_000001_000013_000011_000025_000101_000251_000289_000215_001875_001821_000703_015395_027167_043187_063401,
  1_041128_000001_000001_000007_000015_000007_000039_000125_000041_000057_000513_000017_000965_003225_012833_021131_053243_060377,
  1_041136_000001_000003_000005_000003_000021_000019_000043_000195_000259_000523_000587_003393_006621_000043_010951_051877_079967,
  1_041141_000001_000003_000003_000007_000007_000019_000011_000089_000321_000821_000099_002201_001297_000949_011539_006295_019721,
  1_041146_000001_000001_000005_000003_000029_000027_000123_000111_000441_000441_000337_003849_001677_014403_017203_050661_092177,
  1_041156_000001_000003_000005_000009_000023_000023_000073_000153_000241_000841_000371_001503_005815_014117_004679_017997_112269,
  1_041159_000001_000001_000001_000001_000007_000037_000105_000185_000453_000905_000015_000057_006963_009665_003371_002391_096023,
  1_041163_000001_000003_000007_000001_000001_000021_000035_000043_000449_000111_000191_002163_003249_015049_030215_043569_127973,
  1_041165_000001_000003_000003_000003_000017_000013_000077_000123_000471_000929_001797_002061_000355_004441_001101_024631_128711,
  1_041166_000001_000003_000007_000007_000017_000051_000001_000069_000023_001003_000535_003751_000765_005253_021027_052901_061951,
  1_041184_000001_000001_000007_000009_000025_000013_000033_000013_000423_000787_000223_000729_004443_000227_011487_014259_052951,
  1_041193_000001_000003_000005_000005_000025_000027_000113_000093_000013_000679_001295_003773_007253_014629_008907_045885_085387,
  1_041202_000001_000003_000003_000013_000015_000055_000099_000031_000119_000955_001477_003745_006777_000973_004723_062133_065093,
  1_041211_000001_000003_000003_000009_000013_000051_000105_000037_000477_000579_000765_002573_006869_003891_030969_063413_056603,
  1_041216_000001_000003_000001_000003_000015_000023_000067_000109_000075_000721_000523_001433_003455_006377_023795_013711_121349,
  1_041239_000001_000001_000003_000011_000005_000005_000099_000117_000233_000621_000509_003235_007483_012325_013203_020075_027537,
  1_041243_000001_000003_000003_000009_000023_000051_000093_000245_000307_000689_001993_003607_001985_011839_025553_054941_068741,
  1_041249_000001_000001_000003_000005_000019_000021_000033_000071_000447_000539_000351_002549_000087_004317_001287_062289_121065,
  1_041262_000001_000003_000005_000005_000009_000023_000037_000189_000449_000263_000037_003127_001709_010793_007379_038565_008267,
  1_041267_000001_000001_000007_000007_000007_000033_000023_000079_000457_000947_001275_002755_003747_009225_031385_008785_076945,
  1_041276_000001_000003_000001_000009_000017_000033_000029_000059_000505_000649_001679_003609_001361_005987_026455_017295_098697,
  1_041279_000001_000001_000003_000011_000007_000047_000127_000079_000419_000143_000349_000985_006397_010271_029427_019661_032629,
  1_041305_000001_000001_000005_000013_000015_000005_000079_000171_000491_000223_001601_000705_000623_004405_010065_028057_105737,
  1_041306_000001_000001_000007_000003_000029_000007_000081_000069_000265_000669_001763_002109_006275_007683_019561_026737_054449,
  1_041312_000001_000001_000001_000007_000001_000001_000005_000009_000065_000487_001663_001021_001819_009971_022065_040407_004187,
  1_041317_000001_000003_000005_000005_000021_000033_000011_000213_000309_000575_000427_001421_006435_000981_031533_016751_047813,
  1_041321_000001_000003_000003_000013_000007_000059_000065_000065_000401_000195_000211_000421_001139_011729_019717_020699_111863,
  1_041332_000001_000003_000007_000005_000017_000051_000025_000217_000223_000935_000431_001703_004869_005635_000199_005485_037311,
  1_041335_000001_000001_000003_000011_000023_000025_000015_000037_000187_001007_000857_003327_005471_010089_013745_001741_037769,
  1_041345_000001_000003_000005_000015_000031_000017_000075_000125_000001_000449_001293_003427_000709_008285_031143_050655_130793,
  1_041346_000001_000001_000007_000003_000025_000055_000105_000255_000319_000183_001571_002425_005429_007151_008569_037447_023055,
  1_041351_000001_000003_000001_000001_000023_000037_000017_000061_000161_000559_001025_002651_005861_005231_001365_004853_127301,
  1_041365_000001_000003_000001_000009_000017_000037_000087_000241_000411_000053_001555_003805_006867_000125_009829_053581_117413,
  1_041388_000001_000003_000003_000003_000023_000055_000121_000109_000441_000623_001345_003055_002591_011329_016891_061347_125643,
  1_041399_000001_000003_000001_000001_000005_000029_000053_000097_000015_000275_001587_001245_000379_016117_024369_026873_039547,
  1_041405_000001_000003_000001_000005_000003_000063_000085_000167_000301_000045_001357_001185_003939_000945_024961_059427_128129,
  1_041414_000001_000003_000001_000007_000023_000025_000109_000253_000037_000151_000017_001241_000787_015895_007947_065071_014765,
  1_041432_000001_000003_000003_000001_000007_000003_000103_000035_000073_000533_001055_000823_007403_008117_028813_042457_056037,
  1_041454_000001_000003_000005_000015_000001_000015_000097_000109_000293_000259_000935_002977_005257_014563_028871_017647_034185,
  1_041461_000001_000001_000001_000003_000029_000021_000101_000163_000173_001019_001025_000553_000945_003781_001097_058025_124819,
  1_041462_000001_000001_000003_000009_000007_000035_000065_000061_000031_000547_000075_003515_006719_012809_023287_014609_030341,
  1_041471_000001_000003_000007_000009_000003_000053_000021_000207_000383_000917_001383_002873_001663_015665_001787_050741_035145,
  1_041478_000001_000003_000007_000005_000003_000035_000113_000191_000171_000635_001597_002943_002421_005555_006457_022087_104221,
  1_041490_000001_000001_000001_000001_000029_000025_000003_000225_000175_000807_001325_000215_006475_010729_018619_045401_020627,
  1_041506_000001_000001_000005_000011_000023_000025_000039_000207_000081_000633_000403_003369_001295_001289_020853_048899_016613,
  1_041508_000001_000001_000007_000015_000005_000023_000017_000077_000169_000969_001459_003795_003121_005501_032323_046743_124175,
  1_041512_000001_000001_000007_000013_000003_000025_000077_000153_000105_001017_001599_000237_004691_001993_006707_050265_013529,
  1_041517_000001_000003_000003_000015_000007_000011_000081_000223_000061_000589_001263_003999_007643_012101_019853_049279_029999,
  1_041520_000001_000003_000001_000013_000003_000031_000061_000059_000041_000313_000115_000561_003973_013513_006359_029395_034565,
  1_041529_000001_000001_000007_000007_000007_000061_000091_000181_000307_000875_002045_001367_003743_006497_002443_012153_096431,
  1_041530_000001_000001_000003_000007_000019_000063_000097_000211_000157_000945_000891_003747_005483_003081_028939_011179_015935,
  1_041544_000001_000003_000007_000003_000023_000039_000051_000137_000091_000179_001515_001397_002783_009343_011483_052407_111725]

def dirRows17_1_23 : List Nat := [
  1_041550_000001_000003_000003_000011_000011_000025_000111_000061_000115_000329_000485_001713_000565_008607_018869_006595_018605,
  1_041571_000001_000001_000005_000001_000013_000059_000067_000231_000443_000695_001185_000393_006393_012957_015817_037219_113127,
  1_041577_000001_000003_000005_000003_000015_000057_000025_000097_000321_000627_000015_002005_003813_010399_026779_024243_066463,
  1_041580_000001_000003_000007_000007_000017_000043_000117_000179_000447_001005_002007_001753_007685_013331_005187_049341_111927,
  1_041595_000001_000001_000003_000003_000005_000053_000035_000185_000093_000847_001523_003039_000025_003351_023195_041133_038547,
  1_041613_000001_000001_000007_000005_000027_000059_000095_000137_000055_000129_000331_000127_007421_005633_000557_018137_089055,
  1_041622_000001_000003_000003_000011_000005_000053_000093_000137_000175_000191_001645_002047_002569_008177_022691_004037_031823,
  1_041635_000001_000003_000003_000011_000011_000045_000077_000007_000021_000541_000049_001689_000171_000829_028917_045095_001807,
  1_041642_000001_000003_000007_000005_000021_000005_000113_000081_000033_000681_000361_001107_001597_000115_011503_027413_009199,
  1_041661_000001_000001_000003_000011_000029_000057_000015_000249_000105_000683_000833_002579_003517_016153_017373_032587_124333,
  1_041676_000001_000003_000007_000013_000003_000035_000055_000023_000293_000005_002003_002741_004237_008117_020569_063967_106041,
  1_041681_000001_000003_000003_000001_000001_000015_000057_000119_000135_000967_001495_000801_004959_005037_010051_053915_116891,
  1_041684_000001_000001_000007_000009_000015_000029_000053_000139_000505_000473_001179_003289_000369_013147_015739_016739_054949,
  1_041687_000001_000001_000005_000007_000007_000045_000017_000213_000381_000063_000437_003099_003765_000175_013521_011689_058675,
  1_041688_000001_000001_000007_000001_000015_000035_000055_000043_000147_000873_001193_003801_002301_014569_031789_050443_062577,
  1_041694_000001_000001_000005_000007_000021_000041_000003_000045_000043_000303_001465_001461_005295_013397_030439_007103_087505,
  1_041698_000001_000001_000001_000015_000019_000027_000081_000141_000307_000259_000521_001785_006917_015635_027781_064809_053297,
  1_041710_000001_000001_000001_000007_000027_000015_000053_000099_000377_000935_001869_003835_000741_008447_018947_010727_072179,
  1_041712_000001_000001_000003_000005_000015_000051_000091_000207_000007_000997_000935_000591_007325_003025_011335_032087_109535,
  1_041721_000001_000003_000001_000005_000011_000013_000001_000057_000045_000307_001839_001735_002247_013117_017471_016599_103063,
  1_041722_000001_000003_000005_000011_000019_000007_000121_000003_000325_000731_001945_004025_007649_008939_011147_059065_049971,
  1_041729_000001_000003_000001_000005_000029_000063_000095_000121_000467_000007_001857_002389_005213_003931_021187_043529_006767,
  1_041744_000001_000001_000007_000007_000009_000053_000031_000227_000095_000827_000927_003501_002003_012853_002595_033223_125799,
  1_041747_000001_000003_000003_000003_000027_000025_000105_000143_000233_000887_001135_003449_005767_011447_010251_034621_102113,
  1_041753_000001_000003_000003_000015_000003_000063_000085_000119_000103_000835_000443_003861_004957_005389_006137_048851_051887,
  1_041766_000001_000003_000007_000009_000023_000023_000045_000129_000463_000653_001309_003533_001303_002955_018023_037457_114765,
  1_041783_000001_000003_000007_000001_000023_000017_000031_000151_000071_000515_000781_001793_003507_006051_030279_029461_048271,
  1_041790_000001_000003_000005_000015_000001_000031_000009_000187_000131_000571_001309_000965_007561_016113_023209_054615_016969,
  1_041810_000001_000003_000005_000011_000011_000009_000109_000161_000009_000697_001683_001245_002223_003571_018117_013085_099315,
  1_041819_000001_000003_000003_000001_000013_000021_000027_000017_000011_000011_001095_001447_006941_003399_021245_036661_054283,
  1_041825_000001_000003_000001_000003_000021_000051_000021_000197_000161_000689_001219_001337_006623_005765_011579_002679_023889,
  1_041828_000001_000001_000005_000011_000007_000031_000101_000025_000231_000719_001677_001545_000459_014735_025153_065079_015141,
  1_041843_000001_000001_000007_000009_000017_000007_000049_000001_000083_000829_000815_000307_003405_015189_023699_050889_070391,
  1_041846_000001_000001_000003_000015_000021_000057_000097_000191_000415_000899_000197_002635_007507_014009_008633_048997_093925,
  1_041862_000001_000003_000005_000015_000023_000013_000067_000127_000033_000551_000911_003933_002027_010665_019509_018485_076111,
  1_041871_000001_000001_000005_000007_000023_000063_000019_000149_000139_000155_001621_003391_002337_002809_021161_038565_000401,
  1_041874_000001_000001_000001_000007_000019_000023_000081_000049_000339_000879_001903_000657_002677_002273_010853_003225_057933,
  1_041876_000001_000003_000005_000005_000013_000031_000019_000203_000269_001015_000997_002151_004471_011331_005363_046519_051709,
  1_041892_000001_000001_000005_000011_000029_000019_000017_000169_000511_000389_001429_002707_001341_010511_006779_043345_068693,
  1_041899_000001_000001_000005_000011_000019_000025_000029_000037_000423_000345_000953_002525_005937_006595_031389_039347_036343,
  1_041916_000001_000003_000001_000003_000015_000025_000045_000095_000111_000207_000019_001723_004113_000421_003297_046771_008639,
  1_041928_000001_000001_000003_000009_000009_000047_000027_000099_000327_000393_001547_001587_004463_000719_014609_024347_068107,
  1_041957_000001_000003_000007_000007_000029_000019_000057_000229_000131_000497_000109_000251_006599_008947_010255_012875_083831,
  1_041964_000001_000003_000003_000007_000017_000005_000017_000045_000423_000393_001793_000003_000603_015221_013141_040585_037489,
  1_041969_000001_000001_000001_000011_000005_000001_000053_000147_000129_000135_001473_000017_007539_013513_016045_017375_041261,
  1_041981_000001_000003_000001_000005_000003_000015_000075_000057_000047_000581_000739_003529_004323_010225_027861_014431_106811,
  1_041996_000001_000003_000003_000013_000023_000057_000041_000039_000217_000067_000595_001381_006281_010125_030605_007935_124219,
  1_041999_000001_000001_000007_000015_000015_000045_000001_000135_000495_000271_002023_003267_000039_015025_032763_039023_020041,
  1_042001_000001_000003_000007_000013_000023_000053_000075_000147_000187_000633_001989_001885_006581_012169_013639_019707_096429,
  1_042017_000001_000001_000005_000009_000013_000055_000013_000041_000305_000105_001983_000273_000035_005185_022569_054203_031641,
  1_042023_000001_000001_000003_000015_000021_000019_000059_000035_000165_000575_001961_001443_004803_002339_028329_047695_021505,
  1_042027_000001_000003_000001_000003_000023_000045_000095_000085_000055_000457_001957_001243_004091_014669_013213_053901_122605,
  1_042032_000001_000003_000007_000001_000013_000001_000061_000253_000195_000839_000181_001153_001391_000205_006725_001757_086817,
  1_042035_000001_000001_000003_000009_000007_000013_000115_000137_000169_000851_000299_000509_006709_006331_000051_031833_025217,
  1_042044_000001_000001_000005_000015_000029_000023_000119_000015_000041_000585_001713_001203_001653_003287_025333_058873_071853,
  1_042050_000001_000003_000005_000015_000001_000045_000035_000079_000097_000381_002027_003795_002127_004775_004579_063267_024719,
  1_042061_000001_000001_000005_000007_000017_000021_000123_000075_000003_000887_001537_002017_001623_016315_012535_064281_054925,
  1_042062_000001_000001_000003_000013_000005_000023_000117_000043_000305_000365_000775_001599_005917_013995_006353_003113_106317,
  1_042073_000001_000001_000003_000011_000021_000019_000009_000011_000129_000349_000579_003523_005259_008083_024513_015077_115377,
  1_042098_000001_000001_000007_000009_000019_000031_000107_000003_000185_000821_000907_002389_007015_003161_013603_035063_060641,
  1_042104_000001_000001_000003_000001_000019_000035_000105_000245_000363_000745_001287_004051_005201_007787_020919_026567_037357,
  1_042109_000001_000003_000001_000001_000023_000031_000001_000149_000061_000489_000371_000987_003689_014275_008581_048221_044183,
  1_042120_000001_000001_000005_000003_000009_000035_000051_000017_000439_000355_000461_002129_001567_013261_022347_017013_053857,
  1_042125_000001_000003_000003_000015_000003_000033_000059_000185_000157_000933_001489_000647_004839_012139_003145_057819_011731,
  1_042131_000001_000003_000005_000015_000017_000031_000059_000051_000117_001001_001585_002861_002785_009579_028013_004481_126723,
  1_042143_000001_000003_000007_000013_000027_000001_000041_000119_000179_000879_001617_004053_003537_015389_016381_040153_068019,
  1_042153_000001_000001_000003_000013_000013_000035_000045_000203_000333_000337_001415_001889_002361_004207_010411_021013_044009,
  1_042176_000001_000003_000003_000005_000027_000009_000017_000085_000331_000369_001219_000247_001977_012267_001181_018811_054017,
  1_042182_000001_000003_000005_000009_000021_000057_000057_000175_000283_000639_001155_001595_008187_009981_021451_007525_052751,
  1_042188_000001_000003_000001_000005_000027_000061_000095_000025_000271_000081_001335_002821_007805_010167_013197_058341_062325,
  1_042203_000001_000001_000007_000003_000015_000031_000075_000005_000211_000663_000551_000963_006015_011907_017045_022863_032389,
  1_042216_000001_000001_000007_000005_000021_000053_000067_000071_000251_000135_001153_002247_002499_015431_021419_046737_002827,
  1_042219_000001_000001_000005_000003_000031_000025_000039_000209_000437_000791_001595_000637_001581_006575_026407_024043_011277,
  1_042227_000001_000003_000003_000005_000021_000015_000013_000019_000259_000949_001237_000239_005739_004661_003405_055775_058781,
  1_042234_000001_000001_000003_000005_000001_000063_000005_000197_000329_000625_000981_000913_003957_002765_008801_056675_129511,
  1_042251_000001_000003_000003_000003_000029_000053_000065_000145_000435_000937_000787_002043_004945_014585_002789_015771_112335,
  1_042254_000001_000003_000007_000013_000003_000023_000033_000141_000131_000375_000739_000711_000897_000469_003635_043335_003069,
  1_042256_000001_000001_000007_000011_000029_000013_000111_000149_000197_000793_001541_001879_007683_009397_006873_043733_118507,
  1_042259_000001_000003_000007_000007_000029_000021_000097_000113_000139_000573_001099_002615_005123_013021_009533_057673_079283,
  1_042282_000001_000003_000001_000005_000011_000009_000059_000089_000469_000797_001119_001037_001667_005947_006051_065045_098275,
  1_042289_000001_000003_000003_000009_000011_000007_000051_000191_000321_000677_001601_000681_003579_014441_026579_018019_043065,
  1_042302_000001_000003_000005_000011_000007_000011_000079_000021_000335_000537_000801_003553_004311_000375_007333_064839_088841,
  1_042307_000001_000003_000001_000007_000005_000011_000015_000163_000069_000645_000057_003685_005143_008275_012763_025035_068949,
  1_042310_000001_000001_000003_000013_000029_000033_000125_000179_000431_000129_001367_000951_005843_013419_013897_017315_058083,
  1_042322_000001_000001_000003_000011_000031_000033_000003_000007_000185_000821_000231_000869_006147_015243_032029_020295_060871,
  1_042328_000001_000001_000001_000001_000031_000043_000021_000103_000275_000573_000805_000225_002049_008375_032595_053201_126487,
  1_042338_000001_000001_000001_000009_000031_000029_000007_000091_000277_000937_001223_002435_004335_007861_009647_013577_030059,
  1_042349_000001_000001_000001_000001_000023_000025_000069_000175_000293_000905_000765_001527_006655_015431_002511_003147_075431,
  1_042367_000001_000003_000003_000003_000015_000053_000109_000195_000087_000557_001277_001471_007401_014127_011479_041505_000769,
  1_042386_000001_000001_000005_000011_000023_000037_000121_000181_000199_000359_001521_002561_003641_007621_014219_006959_077529,
  1_042398_000001_000003_000001_000011_000005_000007_000069_000199_000501_000251_000707_001485_008125_003209_030883_040259_085087,
  1_042404_000001_000003_000005_000013_000009_000035_000005_000133_000505_000039_000581_001605_006303_001211_027211_055591_031689,
  1_042413_000001_000001_000005_000003_000017_000007_000011_000061_000483_000059_001569_002583_000759_005759_003575_044547_089783,
  1_042419_000001_000001_000007_000015_000005_000027_000107_000005_000471_000421_000383_003591_003609_013817_000633_022043_083119,
  1_042421_000001_000001_000003_000007_000027_000055_000061_000249_000037_000241_001483_002839_001231_004765_001551_055801_129679,
  1_042422_000001_000001_000001_000003_000011_000001_000019_000207_000143_000351_000409_000721_004597_013389_030297_043253_129923,
  1_042431_000001_000003_000003_000007_000007_000053_000083_000027_000167_000163_000537_003871_002459_012813_030019_041131_056109,
  1_042445_000001_000001_000005_000001_000023_000037_000011_000067_000161_000751_000123_000307_003341_012983_021565_058529_094503,
  1_042448_000001_000003_000003_000015_000011_000033_000039_000195_000467_000647_001479_001197_007949_006501_018375_015263_021121,
  1_042451_000001_000003_000005_000013_000003_000035_000009_000253_000299_000679_000069_000165_002735_014725_004217_016391_107017]

def dirRows17_1_24 : List Nat := [
  1_042454_000001_000001_000001_000015_000003_000011_000087_000087_000391_000515_000843_003957_001365_013201_015983_053647_035643,
  1_042458_000001_000001_000003_000007_000009_000053_000045_000221_000209_000855_000169_002729_001219_005229_014111_028877_114653,
  1_042470_000001_000001_000005_000003_000011_000017_000005_000093_000303_000785_001895_002483_007399_014031_001007_002743_047307,
  1_042476_000001_000001_000007_000011_000009_000013_000115_000031_000223_001011_000723_001291_005183_000559_015881_043045_028131,
  1_042500_000001_000003_000007_000011_000007_000059_000085_000111_000079_000227_000691_001597_002453_010023_019255_047781_088351,
  1_042509_000001_000003_000003_000007_000021_000033_000039_000035_000253_000743_000563_002455_008015_013403_024883_047881_115559,
  1_042538_000001_000003_000001_000001_000005_000033_000069_000037_000225_000157_001347_003241_004981_015985_009949_049189_021267,
  1_042543_000001_000001_000003_000011_000009_000033_000123_000133_000215_000297_000961_001571_001133_000001_031871_025253_100097,
  1_042545_000001_000001_000001_000007_000013_000029_000101_000127_000113_000785_001257_000525_007397_013143_030315_005969_037829,
  1_042546_000001_000001_000001_000007_000029_000033_000017_000095_000439_000577_001857_000423_000063_015365_004777_059073_007773,
  1_042563_000001_000001_000005_000015_000003_000017_000089_000133_000217_000601_001979_000391_000105_013709_010081_037725_040957,
  1_042570_000001_000001_000001_000015_000025_000007_000085_000197_000155_000367_001927_002007_002563_013147_002345_028735_088243,
  1_042580_000001_000003_000005_000003_000005_000033_000087_000153_000153_000779_000825_002163_000385_011663_002005_051261_025893,
  1_042584_000001_000003_000005_000005_000023_000015_000019_000099_000071_000723_000523_003683_007773_000191_017423_030497_129889,
  1_042589_000001_000001_000007_000011_000001_000003_000049_000119_000039_000661_000297_000027_001575_012145_018519_057285_050059,
  1_042608_000001_000003_000007_000005_000007_000037_000075_000235_000403_000743_000603_001689_005031_008871_028241_016917_016947,
  1_042618_000001_000001_000005_000013_000017_000041_000067_000219_000237_000365_000833_003521_003211_001037_005657_034789_119739,
  1_042629_000001_000001_000005_000007_000003_000061_000089_000107_000335_000825_000803_002445_006861_005421_014585_044037_092711,
  1_042636_000001_000003_000007_000003_000019_000025_000081_000051_000101_000477_001653_002841_006597_009261_030609_015681_048897,
  1_042639_000001_000001_000007_000011_000017_000001_000043_000039_000133_000513_001839_000553_006379_004865_028161_007249_080073,
  1_042644_000001_000001_000005_000005_000013_000045_000019_000225_000399_000679_000195_003613_000413_002901_026749_039971_031435,
  1_042647_000001_000003_000007_000003_000023_000055_000057_000077_000447_000721_000677_000271_006211_012631_005843_035991_082653,
  1_042651_000001_000001_000001_000001_000003_000063_000023_000195_000001_001019_000723_003865_005913_005491_005495_027483_073637,
  1_042654_000001_000003_000001_000011_000017_000031_000027_000211_000411_000789_001049_002487_002203_006457_007275_004833_014131,
  1_042658_000001_000001_000005_000015_000015_000013_000065_000155_000127_000753_001605_001859_002873_009197_001763_011969_082971,
  1_042669_000001_000001_000003_000011_000011_000063_000013_000029_000031_000851_000251_003231_001227_005513_009785_034659_123811,
  1_042678_000001_000003_000005_000001_000019_000057_000041_000205_000091_000039_000989_001897_004789_016071_006507_029363_075773,
  1_042689_000001_000001_000001_000001_000005_000029_000113_000203_000053_000599_001529_001417_007017_009609_004867_017659_080719,
  1_042695_000001_000003_000007_000009_000027_000017_000077_000025_000461_000511_000781_002977_007601_003551_023615_057669_119723,
  1_042696_000001_000003_000003_000009_000023_000043_000115_000021_000125_000237_000893_001431_007423_003717_004371_036193_030481,
  1_042710_000001_000001_000005_000013_000003_000037_000013_000239_000267_000665_000205_002745_003865_012167_026689_000999_009355,
  1_042716_000001_000001_000001_000001_000031_000035_000055_000115_000387_000217_000657_002827_002963_003687_024271_041701_005911,
  1_042730_000001_000001_000003_000003_000027_000057_000041_000183_000351_000841_001327_000719_007043_012503_017953_060719_098223,
  1_042732_000001_000003_000001_000001_000027_000001_000119_000085_000197_000673_001951_002949_004783_000561_012807_043355_063397,
  1_042747_000001_000001_000007_000007_000017_000063_000109_000087_000303_000439_000529_000685_000111_008405_021249_033803_077927,
  1_042750_000001_000001_000007_000009_000011_000063_000027_000185_000445_000025_001313_003979_004229_008797_010671_033995_084463,
  1_042752_000001_000001_000001_000015_000027_000063_000067_000237_000039_000993_000851_004075_003417_001077_011939_031737_093897,
  1_042761_000001_000001_000003_000005_000025_000009_000051_000241_000213_000661_001135_000213_007027_005933_024485_065029_008583,
  1_042772_000001_000003_000005_000011_000031_000001_000017_000237_000107_001021_000279_000181_001741_011099_007871_063231_064445,
  1_042776_000001_000003_000005_000009_000017_000021_000011_000045_000023_000409_000519_001703_005467_009591_013555_023739_073837,
  1_042779_000001_000003_000003_000015_000003_000039_000011_000157_000273_000241_000413_001723_003179_002125_016859_005231_122969,
  1_042797_000001_000003_000005_000011_000021_000027_000029_000243_000255_001011_001179_003545_003557_008091_031569_010217_108361,
  1_042815_000001_000001_000005_000009_000025_000033_000029_000067_000395_000123_001405_003855_007481_005601_021231_017099_013399,
  1_042824_000001_000001_000005_000005_000013_000017_000111_000047_000077_000827_000577_001767_003367_011719_008801_022431_085451,
  1_042837_000001_000003_000007_000011_000011_000031_000017_000141_000149_000293_000055_003459_000019_013709_029135_062765_066455,
  1_042844_000001_000001_000007_000015_000013_000019_000059_000211_000189_000773_001791_002089_002857_001635_017777_046585_070115,
  1_042868_000001_000001_000005_000011_000029_000029_000015_000007_000093_000733_001605_003731_002381_001063_015565_025081_046651,
  1_042877_000001_000003_000001_000009_000025_000005_000087_000113_000025_000093_000881_001137_003237_010983_014317_025945_121493,
  1_042888_000001_000001_000005_000011_000029_000047_000099_000111_000165_000453_000259_002001_007715_002609_015633_040273_002065,
  1_042891_000001_000001_000007_000013_000011_000029_000033_000255_000149_000361_000089_002837_000049_003033_001917_009029_038123,
  1_042912_000001_000001_000001_000007_000027_000031_000105_000061_000469_000497_001919_003005_003651_002143_024359_008053_103647,
  1_042918_000001_000001_000003_000013_000031_000063_000101_000047_000397_000089_001915_002385_005399_008897_021001_042997_110333,
  1_042921_000001_000003_000007_000005_000029_000001_000005_000119_000493_000349_000153_001839_000283_014343_012975_055597_089467,
  1_042927_000001_000003_000005_000003_000005_000051_000071_000227_000063_000799_000745_001387_002435_001003_027937_043421_012279,
  1_042949_000001_000003_000003_000007_000007_000031_000037_000061_000011_000175_000581_001583_004737_003087_010335_060683_057085,
  1_042953_000001_000003_000001_000001_000001_000063_000059_000047_000417_000035_001673_003277_001873_014981_022463_026835_091115,
  1_042967_000001_000001_000007_000005_000015_000023_000115_000013_000253_000583_000219_001307_001189_009891_000641_020841_087133,
  1_042974_000001_000001_000005_000011_000001_000003_000071_000235_000429_000335_001649_001775_003077_013723_003209_019807_007283,
  1_042989_000001_000001_000007_000001_000031_000049_000039_000141_000127_000063_001561_002559_007661_004825_009419_015327_087145,
  1_042995_000001_000001_000005_000003_000017_000033_000051_000219_000467_000151_000161_003301_007509_002235_030371_064031_062741,
  1_042997_000001_000003_000001_000003_000023_000063_000043_000029_000399_000279_000271_003537_001863_001811_014917_028247_034807,
  1_043007_000001_000001_000003_000005_000013_000029_000037_000151_000129_000019_000149_002145_005363_006835_019655_001207_074527,
  1_043018_000001_000003_000005_000007_000027_000035_000063_000053_000247_000987_001767_000483_003489_001711_010763_006981_078251,
  1_043025_000001_000001_000003_000001_000015_000047_000083_000147_000375_000539_001623_000029_004599_007981_023533_064659_048753,
  1_043031_000001_000001_000001_000009_000021_000017_000085_000045_000167_000469_001319_002969_001605_001405_009961_028829_125757,
  1_043032_000001_000003_000001_000011_000003_000045_000043_000159_000301_000579_001821_000701_001149_000457_016601_049377_099845,
  1_043038_000001_000001_000007_000013_000011_000007_000037_000227_000345_000973_001167_001247_005109_010917_003029_060065_127347,
  1_043041_000001_000001_000003_000005_000003_000063_000095_000233_000495_000225_001225_003451_007731_014677_010437_001417_033293,
  1_043054_000001_000001_000007_000015_000001_000003_000003_000171_000201_001009_001481_000587_007661_010085_004961_046415_028573,
  1_043074_000001_000001_000005_000001_000003_000045_000067_000079_000463_000733_002007_002811_002943_014857_023469_014479_097875,
  1_043085_000001_000001_000001_000005_000019_000001_000029_000029_000447_000173_001081_000153_005343_005707_001357_030169_122527,
  1_043097_000001_000001_000001_000005_000015_000057_000033_000129_000071_000717_000173_003271_004741_013211_028321_056793_119833,
  1_043098_000001_000003_000003_000009_000009_000041_000047_000071_000103_000713_000725_001335_005261_013835_017619_047429_069815,
  1_043110_000001_000003_000003_000015_000007_000003_000071_000025_000075_000967_001037_003585_003407_009979_002195_051087_126535,
  1_043119_000001_000003_000003_000011_000025_000007_000025_000249_000473_000339_001211_003503_004343_009707_026127_062061_052479,
  1_043131_000001_000001_000003_000003_000027_000009_000079_000197_000207_000845_000377_003231_005177_000899_019497_041187_105897,
  1_043143_000001_000003_000005_000015_000005_000027_000065_000151_000207_000677_000713_002495_000681_015341_005389_051965_043761,
  1_043144_000001_000003_000003_000011_000019_000011_000055_000189_000291_000183_001345_002677_000791_002391_025771_055147_024223,
  1_043152_000001_000001_000003_000011_000031_000059_000029_000005_000275_000483_001361_001527_003019_000245_017667_057905_041329,
  1_043157_000001_000003_000003_000009_000007_000019_000083_000071_000147_000999_000793_003535_001931_012817_002707_045735_031311,
  1_043178_000001_000001_000005_000007_000005_000001_000117_000247_000127_001011_001441_002449_004095_012239_004743_064781_032621,
  1_043180_000001_000003_000001_000011_000019_000057_000043_000039_000097_000485_000951_000989_005975_005219_014421_043681_037305,
  1_043192_000001_000001_000005_000015_000007_000049_000113_000161_000199_000545_001113_003821_002019_008747_004085_050823_031955,
  1_043197_000001_000003_000003_000003_000019_000041_000047_000191_000403_000025_002043_003489_006263_004843_012961_063791_005027,
  1_043203_000001_000001_000007_000001_000025_000055_000005_000051_000121_000273_000973_003893_001771_009373_021927_029353_095935,
  1_043220_000001_000003_000003_000003_000027_000001_000097_000063_000445_000179_000481_002995_003123_004687_024359_035973_074535,
  1_043236_000001_000001_000005_000001_000029_000023_000117_000183_000197_000819_000695_000641_004155_013593_030965_041407_042433,
  1_043245_000001_000003_000005_000001_000023_000053_000061_000253_000087_000487_001995_001281_003367_015047_003493_041711_053407,
  1_043246_000001_000001_000001_000009_000027_000049_000083_000021_000063_000181_001661_001649_000281_012141_025771_035563_042643,
  1_043260_000001_000003_000005_000013_000015_000059_000121_000113_000379_000487_001929_003725_002477_006527_008619_064869_057103,
  1_043265_000001_000003_000001_000007_000027_000039_000069_000093_000193_000395_000433_002091_000151_006921_011599_036143_041179,
  1_043271_000001_000001_000007_000001_000031_000033_000073_000199_000057_000037_001387_003505_007919_003507_002855_008239_084527,
  1_043285_000001_000001_000007_000005_000015_000005_000119_000253_000263_000785_001409_001485_003675_005515_013057_030323_098015,
  1_043286_000001_000003_000001_000001_000011_000005_000057_000083_000365_000703_001923_001397_001103_004015_013123_047093_113793,
  1_043290_000001_000003_000003_000001_000005_000061_000029_000173_000189_000999_000897_003389_006745_001487_002349_059105_107407,
  1_043299_000001_000001_000001_000001_000017_000051_000065_000001_000249_000863_000399_003819_002485_012215_012365_058909_025559,
  1_043314_000001_000003_000007_000001_000031_000039_000043_000219_000051_000013_000779_000505_002259_014571_009049_021555_011869,
  1_043323_000001_000001_000007_000007_000013_000005_000097_000085_000111_000511_000587_000063_002395_008099_026223_000757_119821,
  1_043337_000001_000003_000003_000005_000005_000019_000113_000035_000101_000041_000499_001313_006489_006793_031435_045007_095691,
  1_043348_000001_000003_000005_000015_000019_000037_000103_000187_000347_000667_001957_001825_007447_012359_021779_052749_018679]

def dirRows17_1_25 : List Nat := [
  1_043355_000001_000003_000005_000005_000017_000019_000019_000193_000435_000379_000439_002093_000725_002133_015659_054645_059567,
  1_043357_000001_000003_000007_000003_000023_000035_000033_000013_000023_000349_000231_001635_001625_005039_021299_036413_104681,
  1_043358_000001_000001_000003_000013_000023_000049_000015_000253_000509_000009_000411_002157_003737_011227_006021_042919_100375,
  1_043361_000001_000001_000007_000001_000017_000011_000033_000167_000219_000063_000137_000741_004193_016149_009657_050223_085213,
  1_043362_000001_000003_000007_000011_000023_000059_000113_000149_000427_000697_001723_000255_000201_010081_001079_000323_109091,
  1_043364_000001_000003_000003_000015_000011_000009_000089_000039_000067_000249_001939_001737_003719_010515_016517_022345_083959,
  1_043368_000001_000003_000003_000013_000005_000033_000127_000009_000329_000429_000563_001579_004427_008343_022083_005035_124915,
  1_043376_000001_000001_000001_000005_000015_000057_000121_000171_000315_000983_000743_002015_002421_012431_002561_013331_073163,
  1_043385_000001_000001_000003_000009_000001_000039_000085_000159_000023_000979_001467_000231_004231_003669_016747_024195_046745,
  1_043386_000001_000001_000003_000007_000003_000011_000065_000067_000085_000455_000365_002279_003471_012771_014443_042773_028723,
  1_043391_000001_000003_000005_000001_000013_000009_000105_000237_000103_000059_001301_003125_000509_012669_003893_009775_081303,
  1_043397_000001_000001_000003_000011_000019_000009_000125_000023_000191_000979_000533_000429_003239_015013_013833_040689_102827,
  1_043431_000001_000003_000003_000007_000015_000005_000083_000243_000467_000913_001279_003889_008049_008357_005957_039073_093521,
  1_043438_000001_000003_000003_000003_000019_000005_000123_000077_000289_000057_002001_000807_005257_001671_020273_010183_128439,
  1_043440_000001_000001_000007_000013_000019_000045_000025_000047_000135_000929_001353_002731_003351_007637_027037_058835_050285,
  1_043452_000001_000003_000001_000001_000013_000055_000055_000197_000409_000093_001351_000161_001885_005913_027937_049793_084541,
  1_043463_000001_000001_000003_000007_000029_000021_000113_000179_000203_000533_001471_002035_000447_006781_028729_031099_023027,
  1_043470_000001_000001_000003_000011_000027_000003_000005_000209_000367_000945_000749_003637_002881_008139_027875_034223_097263,
  1_043478_000001_000003_000005_000013_000025_000027_000035_000003_000013_000707_000303_003663_006617_013501_025537_033077_071485,
  1_043481_000001_000001_000007_000015_000011_000029_000065_000047_000235_000635_000133_000153_006175_002961_008171_028641_122589,
  1_043488_000001_000001_000005_000015_000017_000041_000085_000147_000323_000673_001629_003477_003341_016373_013901_060961_039451,
  1_043491_000001_000003_000001_000015_000029_000015_000037_000109_000293_000863_001835_001173_002263_013815_024995_006989_103417,
  1_043506_000001_000003_000003_000015_000003_000031_000023_000047_000015_000717_001457_001067_006229_007051_021771_054815_115827,
  1_043512_000001_000001_000001_000013_000021_000003_000045_000239_000089_000603_000407_000781_008095_007389_018035_032229_039867,
  1_043539_000001_000001_000003_000007_000007_000059_000079_000051_000411_000917_000803_002455_002623_012413_023957_044199_067903,
  1_043567_000001_000003_000001_000009_000017_000037_000117_000047_000101_000733_001861_001111_006785_013743_024371_049427_054711,
  1_043579_000001_000003_000001_000015_000027_000063_000107_000033_000351_000287_001765_001947_006209_008127_030007_018757_031453,
  1_043584_000001_000003_000005_000013_000011_000013_000029_000247_000007_000609_001235_001767_005365_012673_010151_051579_106407,
  1_043601_000001_000003_000007_000015_000005_000025_000081_000197_000051_000615_001695_000259_007983_001403_007903_021441_073263,
  1_043614_000001_000001_000005_000001_000013_000061_000055_000175_000445_000003_001957_001171_006823_004285_011847_012789_079787,
  1_043617_000001_000001_000005_000015_000017_000051_000111_000201_000045_000097_000045_002533_001125_003663_013685_045719_051497,
  1_043623_000001_000003_000003_000013_000029_000059_000111_000097_000381_000477_001229_003709_005185_007055_032729_032881_025539,
  1_043630_000001_000003_000001_000009_000001_000039_000057_000143_000189_000625_001717_001755_003129_000807_027975_015511_066123,
  1_043647_000001_000003_000003_000001_000005_000041_000025_000027_000163_000397_001595_002325_001803_012439_025743_024509_072613,
  1_043658_000001_000001_000005_000013_000029_000041_000125_000113_000367_000709_001911_000669_000831_005375_031145_026197_033543,
  1_043663_000001_000001_000005_000001_000001_000005_000091_000199_000133_000273_000393_001179_000717_012791_017693_006905_020433,
  1_043665_000001_000001_000003_000015_000029_000035_000009_000127_000383_000673_001821_002765_002425_011789_019741_043189_099557,
  1_043691_000001_000001_000007_000013_000009_000019_000119_000103_000011_000983_000623_000391_001609_002333_019843_028269_041237,
  1_043701_000001_000003_000007_000005_000029_000003_000013_000213_000387_000361_000749_000669_001625_005687_011369_038119_038389,
  1_043705_000001_000003_000005_000013_000013_000051_000047_000033_000001_000979_001817_002633_007181_000047_003603_049211_004377,
  1_043708_000001_000003_000001_000001_000011_000063_000005_000249_000013_000805_001097_001449_005235_016299_025855_030949_003013,
  1_043719_000001_000003_000007_000009_000029_000035_000089_000135_000475_000945_000999_000771_006023_013317_032611_043971_010393,
  1_043731_000001_000001_000001_000005_000023_000003_000037_000117_000095_000985_001599_002191_003617_005831_031113_010873_112219,
  1_043737_000001_000003_000005_000007_000011_000015_000055_000065_000239_000365_001209_003509_008101_008619_024775_065291_050589,
  1_043740_000001_000001_000007_000009_000021_000019_000123_000083_000317_000717_000433_000031_002597_014723_028839_007817_126123,
  1_043747_000001_000001_000007_000011_000003_000033_000099_000039_000227_000279_000353_001921_007883_016187_005157_041121_089425,
  1_043749_000001_000003_000005_000009_000025_000007_000029_000165_000129_000077_000159_000923_001357_001159_023537_058087_056443,
  1_043750_000001_000001_000007_000003_000013_000051_000045_000161_000027_000041_001295_002937_007223_005271_017927_023311_002543,
  1_043754_000001_000001_000001_000001_000011_000053_000119_000165_000409_000785_001649_003587_000259_010997_003171_031271_104631,
  1_043764_000001_000001_000005_000007_000005_000007_000049_000201_000373_000825_001755_003751_008041_008133_021347_012039_003049,
  1_043767_000001_000001_000001_000003_000007_000029_000103_000001_000473_000065_000761_001611_005121_014345_032535_016679_011321,
  1_043768_000001_000003_000003_000011_000021_000057_000035_000063_000237_000415_001943_000483_005377_014647_023433_045459_032535,
  1_043773_000001_000001_000001_000015_000021_000057_000007_000103_000493_000279_000665_003699_000169_007619_003571_011539_031983,
  1_043785_000001_000001_000001_000001_000009_000005_000081_000159_000105_000927_000379_001133_001805_014341_009833_063151_070877,
  1_043788_000001_000001_000007_000005_000019_000005_000063_000127_000129_000043_000757_002215_003899_000643_019731_017345_102611,
  1_043810_000001_000003_000007_000007_000027_000021_000003_000069_000475_000283_000319_000833_003683_011275_018191_044027_024901,
  1_043819_000001_000001_000005_000005_000031_000025_000063_000033_000505_000765_000257_001147_000779_012505_019971_024695_065935,
  1_043834_000001_000001_000001_000015_000023_000033_000031_000107_000059_000639_001307_003211_006171_015665_016775_061671_025569,
  1_043853_000001_000003_000003_000009_000031_000003_000113_000199_000425_000895_001051_002125_001525_015199_014845_004213_018449,
  1_043866_000001_000003_000005_000003_000003_000011_000075_000121_000033_000265_000459_003879_000909_006533_018451_032421_117427,
  1_043871_000001_000001_000001_000009_000011_000009_000125_000175_000309_000847_000959_002013_001557_009291_002963_043275_009917,
  1_043872_000001_000001_000005_000003_000015_000039_000067_000035_000373_000601_000463_001263_001615_015059_031011_036059_114493,
  1_043881_000001_000001_000005_000015_000005_000043_000049_000239_000461_000171_001863_002249_002923_015897_022941_029925_021429,
  1_043889_000001_000001_000001_000015_000013_000031_000127_000205_000361_000149_001641_001443_005959_013183_013861_009533_001011,
  1_043902_000001_000001_000003_000013_000009_000049_000039_000067_000165_000695_000611_002261_003425_006247_023575_051833_106167,
  1_043926_000001_000001_000007_000009_000029_000021_000075_000251_000087_000263_002035_001007_003821_012719_008889_047901_039037,
  1_043935_000001_000003_000001_000003_000015_000051_000079_000127_000201_000497_001881_003841_001821_014435_004933_006853_104305,
  1_043946_000001_000001_000005_000011_000023_000047_000033_000109_000481_000585_000333_002525_000593_001625_005787_023839_030647,
  1_043951_000001_000001_000005_000001_000017_000003_000007_000043_000113_000873_001433_003377_000045_000831_017015_021479_007257,
  1_043953_000001_000001_000001_000001_000013_000021_000059_000159_000279_000871_000053_003647_002599_012417_025807_006867_018251,
  1_043971_000001_000001_000005_000009_000029_000061_000007_000081_000353_000761_000269_004047_003051_008385_002919_018875_015239,
  1_044008_000001_000001_000007_000013_000031_000017_000071_000103_000107_000655_001263_000849_001809_000349_003239_045381_117451,
  1_044011_000001_000001_000005_000009_000027_000045_000083_000207_000117_000077_000437_000523_000851_013595_012381_027271_059951,
  1_044026_000001_000003_000003_000015_000003_000033_000103_000217_000061_000443_001077_002887_001751_011111_000465_037051_089687,
  1_044033_000001_000001_000001_000005_000015_000015_000013_000115_000275_000565_001257_001067_006561_008143_002149_053169_123637,
  1_044048_000001_000003_000003_000015_000027_000063_000025_000191_000143_000103_001247_001053_002469_009823_004437_018195_091751,
  1_044057_000001_000001_000007_000011_000001_000063_000031_000103_000249_000861_000983_000335_000035_004291_016307_043669_068065,
  1_044058_000001_000003_000001_000015_000013_000029_000051_000145_000177_000851_000039_003531_004477_004243_003301_064293_015741,
  1_044067_000001_000001_000007_000003_000029_000045_000005_000085_000185_000191_001007_003085_002177_014911_018319_000265_025435,
  1_044081_000001_000001_000005_000009_000009_000057_000047_000143_000217_000947_002021_001835_004773_015145_026519_046407_103667,
  1_044087_000001_000003_000001_000011_000001_000007_000051_000075_000207_000757_000089_001289_000039_015641_009477_028503_047113,
  1_044099_000001_000003_000001_000011_000009_000019_000021_000197_000429_000121_000813_003447_006091_003167_005401_027791_026499,
  1_044105_000001_000001_000007_000015_000001_000015_000085_000247_000003_000111_000433_003103_005049_007929_022645_053247_053417,
  1_044106_000001_000001_000007_000007_000027_000019_000125_000101_000269_000007_000777_001289_001429_011561_018043_003601_125857,
  1_044114_000001_000001_000001_000013_000011_000009_000127_000231_000239_000435_001291_004025_001049_015549_007577_051147_038121,
  1_044116_000001_000001_000007_000003_000009_000055_000057_000137_000387_000565_000873_001417_005993_004849_001731_051653_105697,
  1_044130_000001_000001_000007_000009_000007_000047_000115_000119_000325_000881_001687_001009_007007_012541_006737_028471_007369,
  1_044139_000001_000003_000001_000001_000011_000047_000025_000163_000399_000977_001777_000727_005575_001311_023843_002199_093229,
  1_044141_000001_000001_000007_000005_000013_000019_000053_000123_000439_000585_001977_003387_005305_001463_014307_009519_000537,
  1_044153_000001_000001_000007_000015_000001_000053_000013_000213_000323_000699_001585_003499_002441_003055_031263_063923_009779,
  1_044159_000001_000001_000005_000005_000021_000043_000123_000043_000475_000521_001301_003185_005627_007443_001195_039485_113125,
  1_044160_000001_000001_000005_000007_000009_000003_000039_000005_000237_000719_001743_001153_006401_014701_005503_038491_024123,
  1_044170_000001_000003_000005_000009_000017_000033_000117_000023_000409_000063_001829_002587_003489_003209_004775_040069_004721,
  1_044172_000001_000003_000003_000005_000021_000063_000095_000231_000025_000167_001181_000813_004591_005227_021999_019633_037547,
  1_044187_000001_000001_000007_000011_000013_000009_000013_000147_000239_000951_001247_001199_007907_012493_025371_001917_107499,
  1_044190_000001_000001_000005_000015_000003_000049_000031_000103_000189_000561_001763_003941_003525_003165_007789_057729_092635,
  1_044193_000001_000001_000001_000005_000003_000061_000107_000163_000465_000631_001519_000169_004469_008153_011039_000247_037657,
  1_044199_000001_000003_000001_000005_000009_000037_000051_000195_000465_000975_000169_001077_000995_002669_007663_028997_025779,
  1_044213_000001_000001_000007_000013_000007_000037_000003_000117_000147_000335_000629_004077_005855_002893_005629_055075_083359,
  1_044218_000001_000001_000005_000009_000009_000025_000053_000063_000315_000287_001833_001397_002395_005719_006719_018003_101073]

/-- Rows with 17 initial numbers, part 1. -/
def dir17_1 : List (List Nat) := [
  dirRows17_1_0,
  dirRows17_1_1,
  dirRows17_1_2,
  dirRows17_1_3,
  dirRows17_1_4,
  dirRows17_1_5,
  dirRows17_1_6,
  dirRows17_1_7,
  dirRows17_1_8,
  dirRows17_1_9,
  dirRows17_1_10,
  dirRows17_1_11,
  dirRows17_1_12,
  dirRows17_1_13,
  dirRows17_1_14,
  dirRows17_1_15,
  dirRows17_1_16,
  dirRows17_1_17,
  dirRows17_1_18,
  dirRows17_1_19,
  dirRows17_1_20,
  dirRows17_1_21,
  dirRows17_1_22,
  dirRows17_1_23,
  dirRows17_1_24,
  dirRows17_1_25]

end SALib.Data
